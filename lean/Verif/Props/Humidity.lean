import Verif.Lemmas.Humidity
import Verif.Props.Absorbing
import Verif.Props.ClosedForm

/-!
# C114: more humid air absorbs more

Two atmospheres that differ in their humidity only: the one with more vapour has the larger absorption by water vapour,
at every frequency, although more vapour also widens and shifts the lines (which lowers the absorption at the centre of a
line, and switches a resonance off where the shift carries it past the cut-off).
-/

namespace Verif.Props

open Verif Verif.Py Verif.Model Verif.Spec Verif.Lemmas Real

theorem vapour_share {m : String} (hm : m ∈ plainWater) : ∃ k : ℝ, 99 / 100 ≤ k ∧ k ≤ 1 ∧
    ∀ {T : ℝ}, 0 < T → ∀ e, vapourPressure m T (e / 10) = k * e := by
  refine ⟨18.01528 / 0.0831451 * (if m = "R98" ∨ m = "R03" ∨ m = "R16" ∨ m = "R17" then 1 / 217 else 1 / 216.68),
    ?_, ?_, fun {T} hT e => ?_⟩
  · split_ifs <;> norm_num
  · split_ifs <;> norm_num
  · have hk : (if m = "R98" ∨ m = "R03" ∨ m = "R16" ∨ m = "R17" then (1 / 217 : ℝ)
        else if m = "R18" ∨ m = "R19" ∨ m = "R19SD" ∨ m = "R20" ∨ m = "R20SD" ∨ m = "R21SD" then 1 / 216.68
        else 461.52 / 100000) =
        if m = "R98" ∨ m = "R03" ∨ m = "R16" ∨ m = "R17" then 1 / 217 else 1 / 216.68 := by
      simp only [plainWater, List.mem_cons, List.not_mem_nil, or_false] at hm
      rcases hm with rfl | rfl | rfl | rfl | rfl | rfl | rfl <;> simp
    unfold vapourPressure vapourDensity
    rw [hk]
    generalize (if m = "R98" ∨ m = "R03" ∨ m = "R16" ∨ m = "R17" then (1 / 217 : ℝ) else 1 / 216.68) = k
    field_simp

theorem lineAbsorption_scale {m : String} (hm : m ∈ plainWater) : ∃ K : ℝ, 0 < K ∧ K ≤ 1.0645e12 ∧
    ∀ ρ S, lineAbsorption m ρ S = K * ρ * S := by
  refine ⟨if m = "R98" ∨ m = "R03" ∨ m = "R16" then 3.1831e-5 * 3.335e16 else 3.1831e-5 * 3.344e16, ?_, ?_, fun ρ S => ?_⟩
  · split_ifs <;> norm_num
  · split_ifs <;> norm_num
  · simp only [plainWater, List.mem_cons, List.not_mem_nil, or_false] at hm
    unfold lineAbsorption
    rcases hm with rfl | rfl | rfl | rfl | rfl | rfl | rfl <;> simp

section

variable {m : String} {F : LineList} {c : String → ℕ → ℝ} {n : ℕ} {T p e e' f : ℝ}

/-- The lines: all but a small rest, proportional to the added vapour and to the square of the frequency. -/
theorem lines_humid (hm : m ∈ plainWater) (hF : waterFile m = some F) (C : WaterColumns F c n) (hT : 200 ≤ T)
    (hT' : T ≤ 330) (hp : 0 < p) (hp' : p ≤ 1100) (he : 0 ≤ e) (hee : e ≤ e') (hep : e' ≤ p / 10) {κ : ℝ}
    (hκ : 0 < κ) (hκ' : κ ≤ 1) :
    e * Spec.lineSum m c n T (p - κ * e) (κ * e) f ≤ e' * Spec.lineSum m c n T (p - κ * e') (κ * e') f +
      16 * (6e-14 * f ^ 2 * (2 * (1 / 125 * p / (747 * 750 ^ 2)) * (e' - e))) := by
  have hn : n ≤ 16 := (gentle_continuum hm hF C.col C.len).1
  have hδ : 0 ≤ 1 / 125 * p / (747 * 750 ^ 2) := by positivity
  have hterm : ∀ i ∈ Finset.range n,
      e * (strength c (c "reftline" 0 / T) i * (f / c "fl" i) ^ 2 *
        resonances m c (c "reftline" 0 / T) (p - κ * e) (κ * e) f i) ≤
      e' * (strength c (c "reftline" 0 / T) i * (f / c "fl" i) ^ 2 *
        resonances m c (c "reftline" 0 / T) (p - κ * e') (κ * e') f i) +
      6e-14 * f ^ 2 * (2 * (1 / 125 * p / (747 * 750 ^ 2)) * (e' - e)) := fun i hi => by
    obtain ⟨sa, ss, G, hs, h0, h1⟩ := gentle_of_file hm hF C.col C.len hT hT' (Finset.mem_range.1 hi)
    rw [resonances_plain hm, resonances_plain hm, hs, hs]
    have a := line_share (v := f - c "fl" i) (k := -1) G hp hp' hκ hκ' he hee hep (by norm_num)
    have b := line_share (v := f + c "fl" i) (k := 1) G hp hp' hκ hκ' he hee hep (by norm_num)
    have e1 (x : ℝ) : f - c "fl" i + -1 * x = f - (c "fl" i + x) := by ring
    have e2 (x : ℝ) : f + c "fl" i + 1 * x = f + (c "fl" i + x) := by ring
    rw [e1, e1] at a
    rw [e2, e2] at b
    unfold halfWidth
    set q := strength c (c "reftline" 0 / T) i * (f / c "fl" i) ^ 2
    have hq0 : 0 ≤ q := by positivity
    have hq1 : q ≤ 6e-14 * f ^ 2 := by
      rcases eq_or_ne (c "fl" i) 0 with h | h
      · rw [show q = 0 by simp [q, h]]
        positivity
      · have : 0 ≤ (f / c "fl" i) ^ 2 := sq_nonneg _
        calc q ≤ 6e-14 * c "fl" i ^ 2 * (f / c "fl" i) ^ 2 := mul_le_mul_of_nonneg_right h1 this
          _ = 6e-14 * f ^ 2 := by field_simp
    have hr : 0 ≤ 2 * (1 / 125 * p / (747 * 750 ^ 2)) * (e' - e) := mul_nonneg (by positivity) (by linarith)
    have k1 := mul_le_mul_of_nonneg_right hq1 hr
    have k2 := mul_le_mul_of_nonneg_left (add_le_add a b) hq0
    linarith
  have hsum := Finset.sum_le_sum hterm
  rw [Finset.sum_add_distrib, ← Finset.mul_sum, ← Finset.mul_sum, Finset.sum_const, Finset.card_range, nsmul_eq_mul] at hsum
  have hr : 0 ≤ 6e-14 * f ^ 2 * (2 * (1 / 125 * p / (747 * 750 ^ 2)) * (e' - e)) :=
    mul_nonneg (by positivity) (mul_nonneg (by positivity) (by linarith))
  have hn' : (n : ℝ) ≤ 16 := by exact_mod_cast hn
  have := mul_le_mul_of_nonneg_right hn' hr
  unfold Spec.lineSum
  linarith

/-- The continuum grows by more than that. -/
theorem continuum_humid {cf cs xs k : ℝ} (hcf : 5e-10 ≤ cf) (hcs : 0 < cs) (hT : 200 ≤ T) (hT' : T ≤ 330)
    (hp : 0 < p) (he : 0 ≤ e) (hee : e < e') (hep : e' ≤ p / 10) (hk : 99 / 100 ≤ k) (hk' : k ≤ 1) :
    continuum cf 3 cs xs (300 / T) (p - k * e) (k * e) f + 2.9e-10 * p * f ^ 2 * (e' - e) ≤
      continuum cf 3 cs xs (300 / T) (p - k * e') (k * e') f := by
  have hT0 : 0 < T := by linarith
  have hθ : 10 / 11 ≤ 300 / T := by rw [le_div_iff₀ hT0]; linarith
  have hθ3 : 0.75 ≤ (300 / T) ^ (3 : ℝ) := by
    rw [show (3 : ℝ) = ((3 : ℕ) : ℝ) by norm_num, rpow_natCast]
    calc (0.75 : ℝ) ≤ (10 / 11) ^ 3 := by norm_num
      _ ≤ _ := by gcongr
  have hx : 0 < (300 / T) ^ xs := rpow_pos_of_pos (by positivity) _
  unfold continuum
  set A := (300 / T) ^ (3 : ℝ)
  set B := (300 / T) ^ xs
  have hA : 3.75e-10 ≤ cf * A := by
    calc (3.75e-10 : ℝ) = 5e-10 * 0.75 := by norm_num
      _ ≤ _ := by gcongr
  have hd : 0 < e' - e := by linarith
  have h1 : 0.8 * p ≤ p - k * (e + e') := by
    have : k * (e + e') ≤ 1 * (e + e') := mul_le_mul_of_nonneg_right hk' (by linarith)
    linarith
  have h2 : 2.9e-10 * p ≤ cf * A * k * (p - k * (e + e')) := by
    have a : 3.7e-10 ≤ cf * A * k := by
      calc (3.7e-10 : ℝ) ≤ 3.75e-10 * (99 / 100) := by norm_num
        _ ≤ _ := by gcongr
    calc 2.9e-10 * p ≤ 3.7e-10 * (0.8 * p) := by linarith
      _ ≤ _ := by gcongr
  have h3 : 0 ≤ cs * B * k ^ 2 * (e' ^ 2 - e ^ 2) := by
    have : e ^ 2 ≤ e' ^ 2 := by gcongr
    have : 0 ≤ e' ^ 2 - e ^ 2 := by linarith
    positivity
  have h4 := mul_le_mul_of_nonneg_right h2 hd.le
  have h5 : 2.9e-10 * p * (e' - e) ≤ cf * A * k * (p - k * (e + e')) * (e' - e) + cs * B * k ^ 2 * (e' ^ 2 - e ^ 2) := by
    linarith
  have h6 := mul_le_mul_of_nonneg_right h5 (sq_nonneg f)
  have e1 : (cf * A * (p - k * e') + cs * B * (k * e')) * (k * e') * f ^ 2 =
      (cf * A * (p - k * e) + cs * B * (k * e)) * (k * e) * f ^ 2 +
      (cf * A * k * (p - k * (e + e')) * (e' - e) + cs * B * k ^ 2 * (e' ^ 2 - e ^ 2)) * f ^ 2 := by ring
  rw [e1]
  linarith

/-- The closed formula for the absorption by water vapour increases with the vapour pressure. -/
theorem water_humid (hm : m ∈ plainWater) (hF : waterFile m = some F) (C : WaterColumns F c n) (hT : 200 ≤ T)
    (hT' : T ≤ 330) (hp : 0 < p) (hp' : p ≤ 1100) (he : 0 ≤ e) (hee : e < e') (hep : e' ≤ p / 10) (hf : 0 < f) :
    waterAbsorption m c n T p e f < waterAbsorption m c n T p e' f := by
  have hT0 : 0 < T := by linarith
  obtain ⟨k, hk, hk', hv⟩ := vapour_share hm
  obtain ⟨K, hK, hK', hl⟩ := lineAbsorption_scale hm
  obtain ⟨-, g1, g2, g3, g4⟩ := gentle_continuum hm hF C.col C.len
  have hL := lines_humid (f := f) hm hF C hT hT' hp hp' he hee.le hep (by linarith : 0 < k) hk'
  have hr : 0 < 18.01528 / (0.0831451 * T) := by positivity
  have hr' : 18.01528 / (0.0831451 * T) ≤ 1.0834 := by rw [div_le_iff₀ (by positivity)]; linarith
  have hρ (e : ℝ) : vapourDensity T (e / 10) = 18.01528 / (0.0831451 * T) * e := by unfold vapourDensity; ring
  have hd : 0 < e' - e := by linarith
  have hpfd : 0 < p * f ^ 2 * (e' - e) := by positivity
  have hlines : lineAbsorption m (vapourDensity T (e / 10)) (Spec.lineSum m c n T (p - k * e) (k * e) f) <
      lineAbsorption m (vapourDensity T (e' / 10)) (Spec.lineSum m c n T (p - k * e') (k * e') f) +
        2.9e-10 * p * f ^ 2 * (e' - e) := by
    rw [hl, hl, hρ, hρ]
    set r := 18.01528 / (0.0831451 * T)
    have hKr : K * r ≤ 1.16e12 := by
      calc K * r ≤ 1.0645e12 * 1.0834 := by gcongr
        _ ≤ _ := by norm_num
    have a := mul_le_mul_of_nonneg_left hL (mul_pos hK hr).le
    have b : K * r * (16 * (6e-14 * f ^ 2 * (2 * (1 / 125 * p / (747 * 750 ^ 2)) * (e' - e)))) ≤
        1.16e12 * (16 * (6e-14 * f ^ 2 * (2 * (1 / 125 * p / (747 * 750 ^ 2)) * (e' - e)))) :=
      mul_le_mul_of_nonneg_right hKr (by positivity)
    have d : 1.16e12 * (16 * (6e-14 * f ^ 2 * (2 * (1 / 125 * p / (747 * 750 ^ 2)) * (e' - e)))) <
        2.9e-10 * p * f ^ 2 * (e' - e) := by
      have : 1.16e12 * (16 * (6e-14 * f ^ 2 * (2 * (1 / 125 * p / (747 * 750 ^ 2)) * (e' - e)))) =
        1.16e12 * 16 * 6e-14 * 2 / 125 / (747 * 750 ^ 2) * (p * f ^ 2 * (e' - e)) := by ring
      rw [this]
      calc _ < 2.9e-10 * (p * f ^ 2 * (e' - e)) := mul_lt_mul_of_pos_right (by norm_num) hpfd
        _ = _ := by ring
    linarith
  unfold waterAbsorption
  simp only [hv hT0, g1, g3]
  split_ifs
  · have := continuum_humid (f := f) (cf := 5.43e-10) (cs := 1.8e-8) (xs := 7.5) (by norm_num) (by norm_num) hT hT' hp he
      hee hep hk hk'
    linarith
  · have := continuum_humid (f := f) (xs := c "xcs" 0) g2 g4 hT hT' hp he hee hep hk hk'
    linarith

end

theorem water_dry {m : String} (hm : m ∈ plainWater) (c : String → ℕ → ℝ) (n : ℕ) {T : ℝ} (hT : 0 < T) (p f : ℝ) :
    waterAbsorption m c n T p 0 f = 0 := by
  obtain ⟨k, -, -, hv⟩ := vapour_share hm
  obtain ⟨K, -, -, hl⟩ := lineAbsorption_scale hm
  have h1 := hv hT 0
  have h2 : vapourDensity T (0 / 10) = 0 := by unfold vapourDensity; simp
  unfold waterAbsorption
  simp only [hl, h1, h2]
  simp [continuum]

/-- What a level of the clear-sky absorption says about water vapour. -/
theorem level_water {m : String} (hm : m ∈ plainWater) {W : LineList} (hW : waterFile m = some W)
    {c : String → ℕ → ℝ} {n : ℕ} (C : WaterColumns W c n) {g : Globals} (hg : g.sel.h2o = some m) {old : LineList}
    (hl : g.h2oll = reloadLL W old) {o3 : Option Val} {p T e f : ℝ} {i : ℕ} {r : ℝ × ℝ} (hT : 0 < T) (he : 0 ≤ e)
    (hep : e ≤ p) (hf : 0 < f) (h : clearLevel shipped g o3 p T e f i = .ok r) :
    r.1 = waterAbsorption m c n T p e f := by
  obtain ⟨a, b, hab, hval⟩ := water_level (p := p) (plain_not hm) hW C old hT he hep hf
  unfold clearLevel at h
  rw [hg] at h
  have hsh : shipped.h2o m g.h2oll (p / 10.0 - e / 10.0) (300.0 / T) (e / 10.0) f = .ok (a, b) := by
    rw [hl]; exact finite_some hab
  cases ho : g.sel.o2 with
  | none => rw [ho] at h; cases h
  | some mo =>
    rw [ho] at h
    simp only [hsh, bind, Except.bind] at h
    split at h
    · cases h
    · split at h
      · cases h
      · split at h
        · cases h
        · cases h
          exact hval

/-- **C114.** One level, any of the seven models with Lorentzian lines, between 200 and 330 K and up to 1100 hPa, with
vapour up to a tenth of the pressure: adding vapour raises the absorption by water vapour, at every frequency.  The rest
of the call (oxygen, nitrogen, ozone) is arbitrary. -/
theorem C114_level {m : String} (hm : m ∈ ["R98", "R03", "R16", "R17", "R18", "R19", "R20"]) {W : LineList}
    (hW : waterFile m = some W) {g : Globals} (hg : g.sel.h2o = some m) {old : LineList} (hl : g.h2oll = reloadLL W old)
    {o3 : Option Val} {p T e e' f : ℝ} {i : ℕ} {r r' : ℝ × ℝ} (hT : 200 ≤ T) (hT' : T ≤ 330) (hp : 0 < p) (hp' : p ≤ 1100)
    (he : 0 ≤ e) (hee : e < e') (hep : e' ≤ p / 10) (hf : 0 < f) (h : clearLevel shipped g o3 p T e f i = .ok r)
    (h' : clearLevel shipped g o3 p T e' f i = .ok r') : 0 ≤ r.1 ∧ r.1 < r'.1 := by
  have hm' : m ∈ plainWater := hm
  obtain ⟨n, hn⟩ := file_len hW
  obtain ⟨c, hc⟩ : ∃ c : String → ℕ → ℝ, ∀ a v, W a = some v → c a = v := ⟨fun a => (W a).getD 0, fun a v h => by simp [h]⟩
  have C : WaterColumns W c n := ⟨hc, hn⟩
  rw [level_water hm' hW C hg hl (by linarith) he (by linarith) hf h,
    level_water hm' hW C hg hl (by linarith) (by linarith) (by linarith) hf h']
  refine ⟨?_, water_humid hm' hW C hT hT' hp hp' he hee hep hf⟩
  rcases he.eq_or_lt with rfl | h0
  · exact (water_dry hm' c n (by linarith) p f).ge
  · rw [← water_dry hm' c n (by linarith : 0 < T) p f]
    exact (water_humid hm' hW C hT hT' hp hp' le_rfl h0 (by linarith) hf).le

/-- Air in the range of C114: temperature, pressure, and humidity up to `r`. -/
structure Moist (S : Settings) (r : ℕ → ℝ) : Prop where
  tk : ∀ i < S.nl, 200 ≤ S.tk i ∧ S.tk i ≤ 330
  p : ∀ i < S.nl, 0 < S.p i ∧ S.p i ≤ 1100
  rh : ∀ i < S.nl, 0 < S.rh i ∧ S.rh i ≤ r i
  vapour : ∀ i < S.nl, r i * eswat (S.tk i) ≤ S.p i / 10

/-- **C114.** Two runs of the simulator, in plane geometry, that differ in the relative humidity only: where the air is
more humid the reported absorption by water vapour is larger, and the reported opacity of water vapour is larger too, up
to 1e-9 Np/km times the path, and without that allowance if no layer changes its kind (C112). -/
theorem C114_run {m : String} (hm : m ∈ ["R98", "R03", "R16", "R17", "R18", "R19", "R20"]) {g : Globals}
    (hg : g.sel.h2o = some m) {I I' : Inst} {r : ℕ → ℝ} (hI : I'.set = { I.set with rh := r }) {rows rows' : List Row}
    (h : (execute shipped g I).1 = .ok rows) (h' : (execute shipped g I').1 = .ok rows') (hice : I.set.ice = false)
    (hamu : I.set.amu = none) (hray : I.set.rayTracing = false) (hn : 1 ≤ I.set.nl)
    (hz : ∀ i, i + 1 < I.set.nl → I.set.z i ≤ I.set.z (i + 1)) (hM : Moist I.set r) {j k : ℕ} (hj : j < I.set.nf)
    (hk : k < I.set.nang) (hf : 0 < I.set.frq j) (ha : 0 < I.set.angles k) (ha' : I.set.angles k < 180) :
    let c := (execute shipped g I).2.out.cell j k
    let c' := (execute shipped g I').2.out.cell j k
    (∀ i < I.set.nl, 0 < c.awet i ∧ c.awet i ≤ c'.awet i ∧ (I.set.rh i < r i → c.awet i < c'.awet i)) ∧
    ∃ w w' f f', c.sptauwet = some w ∧ c'.sptauwet = some w' ∧ c.ptauwet = some f ∧ c'.ptauwet = some f' ∧
      w ≤ w' + 1e-9 * ((I.set.z (I.set.nl - 1) - I.set.z 0) / sin (I.set.angles k * π / 180)) ∧
      (SameKind I.set.nl c.awet c'.awet → w ≤ w' ∧ ∀ i, 1 ≤ i → i < I.set.nl → f i ≤ f' i) := by
  intro c c'
  have hm' : m ∈ plainWater := hm
  obtain ⟨W, hW⟩ := Option.isSome_iff_exists.1 ((C35_names m).2 (by
    simp only [plainWater, List.mem_cons, List.not_mem_nil, or_false] at hm'
    rcases hm' with rfl | rfl | rfl | rfl | rfl | rfl | rfl <;> decide))
  obtain ⟨n, hlen⟩ := file_len hW
  obtain ⟨cw, hcw⟩ : ∃ c : String → ℕ → ℝ, ∀ a v, W a = some v → c a = v :=
    ⟨fun a => (W a).getD 0, fun a v h => by simp [h]⟩
  have C : WaterColumns W cw n := ⟨hcw, hlen⟩
  obtain ⟨g1, e, rho, hl, hv, -, hc⟩ := (execute_ok h).ex
  obtain ⟨g2, e', rho', hl', hv', -, hc'⟩ := (execute_ok h').ex
  rw [hl] at hl'; cases hl'
  obtain ⟨e0, rho0, q1, q2⟩ := vapor_eq (S := I.set) hice
  rw [hv] at q1; cases q1
  obtain ⟨e0', rho0', q1', q2'⟩ := vapor_eq (S := I'.set) (by rw [hI]; exact hice)
  rw [hv'] at q1'; cases q1'
  have hg1 : g1.sel.h2o = some m ∧ ∃ old, g1.h2oll = reloadLL W old := by
    unfold initLineList at hl
    simp only [shipped, hg, Option.bind_some, hW] at hl
    split at hl
    · cases hl
    · cases hl
      exact ⟨hg, _, rfl⟩
  obtain ⟨hg1, old, hll⟩ := hg1
  obtain ⟨es, -, hstep⟩ := (hc k hk).2 j hj
  obtain ⟨es', -, hstep'⟩ := (hc' k (by rw [hI]; exact hk)).2 j (by rw [hI]; exact hj)
  have hs := sin_pos_of_angle ha ha'
  rw [pathOf_plane hray hs.ne', cellGlobals_amu hamu] at hstep
  rw [hI] at hstep'
  rw [pathOf_plane (S := { I.set with rh := r }) hray hs.ne', cellGlobals_amu (S := { I.set with rh := r }) hamu] at hstep'
  have ok := cellStep_ok hstep
  have ok' := cellStep_ok hstep'
  obtain ⟨a, a1, a2, -, a4, -⟩ := ok.clear
  obtain ⟨b, b1, b2, -, b4, -⟩ := ok'.clear
  simp only at b1 b4
  have key : ∀ i < I.set.nl, 0 < (a i).1 ∧ (a i).1 ≤ (b i).1 ∧ (I.set.rh i < r i → (a i).1 < (b i).1) := fun i hi => by
    have l := (tabulateE_ok a1).1 i hi
    have l' := (tabulateE_ok b1).1 i hi
    simp only at l'
    obtain ⟨t1, t2⟩ := hM.tk i hi
    obtain ⟨p1, p2⟩ := hM.p i hi
    obtain ⟨r1, r2⟩ := hM.rh i hi
    have v := hM.vapour i hi
    have es0 := eswat_pos (I.set.tk i)
    have ee : e i = I.set.rh i * eswat (I.set.tk i) := q2 i
    have ee' : e' i = r i * eswat (I.set.tk i) := by rw [q2' i, hI]
    have x0 : 0 < e i := by rw [ee]; positivity
    have x1 : e i ≤ e' i := by rw [ee, ee']; gcongr
    rw [← ee'] at v
    have y := level_water hm' hW C (by exact hg1) (by exact hll) (by linarith) x0.le (by linarith) hf l
    have y' := level_water hm' hW C (by exact hg1) (by exact hll) (by linarith) (by linarith) (by linarith) hf l'
    rw [y, y']
    refine ⟨?_, ?_, fun hr => ?_⟩
    · rw [← water_dry hm' cw n (by linarith : 0 < I.set.tk i) (I.set.p i) (I.set.frq j)]
      exact water_humid hm' hW C t1 t2 p1 p2 le_rfl x0 (by linarith) hf
    · rcases x1.eq_or_lt with q | q
      · rw [q]
      · exact (water_humid hm' hW C t1 t2 p1 p2 x0.le q v hf).le
    · exact water_humid hm' hW C t1 t2 p1 p2 x0.le (by rw [ee, ee']; gcongr) v hf
  have hd : ∀ i < I.set.nl, 0 ≤ if i = 0 then (0 : ℝ) else
      (I.set.z i - I.set.z (i - 1)) * (1 / sin (I.set.angles k * π / 180)) := fun i hi => by
    split_ifs with h0
    · exact le_rfl
    · have := hz (i - 1) (by omega)
      rw [show i - 1 + 1 = i by omega] at this
      exact mul_nonneg (by linarith) (by positivity)
  have hsum : ∀ N, 1 ≤ N → ∑ i ∈ Finset.Ico 1 N, (if i = 0 then (0 : ℝ) else
      (I.set.z i - I.set.z (i - 1)) * (1 / sin (I.set.angles k * π / 180))) =
      (I.set.z (N - 1) - I.set.z 0) / sin (I.set.angles k * π / 180) := fun N hN => by
    induction N, hN using Nat.le_induction with
    | base => simp
    | succ N hN ih =>
      rw [Finset.sum_Ico_succ_top hN, ih, if_neg (by omega), Nat.add_sub_cancel]
      ring
  obtain ⟨w, w', f, f', w1, w2, w3, w4, w5, w6⟩ := integ_pair hn (fun i hi => ⟨(key i hi).1, (key i hi).2.1⟩) hd a4 b4
  rw [hsum _ hn] at w5
  rw [← a2, ← b2] at w6
  refine ⟨fun i hi => ?_, w, w', f, f', w1, w2, w3, w4, w5, w6⟩
  simp only [c, c', a2, b2]
  exact key i hi

/-! ## A concrete pair of runs -/

/-- The three levels of `realS` at the relative humidity `r`. -/
noncomputable def moistS (r : ℝ) : Settings := { realS false with rh := fun _ => r }

theorem moistS_good {r : ℝ} (h0 : 0 ≤ r) (h1 : r ≤ 1) : GoodInput (moistS r) where
  levels := (realS_good false).levels
  emissivity := (realS_good false).emissivity
  frq := (realS_good false).frq
  tk := (realS_good false).tk
  p := (realS_good false).p
  rh _ _ := h0
  vapour i hi := by
    have h3 : (i : ℝ) < 3 := by exact_mod_cast hi
    have h := eswat_le (t := 288 - 6 * i) (by linarith) (by linarith [(Nat.cast_nonneg i : (0 : ℝ) ≤ i)])
    have := mul_le_mul_of_nonneg_right h1 (eswat_pos (288 - 6 * i)).le
    simp only [moistS, realS]
    linarith
  ice := rfl
  amu := rfl
  path k hk := goodPath_plane rfl (demo_angles k hk).1 (demo_angles k hk).2 fun i _ => by simp [moistS, realS, demoS]

theorem moistS_moist : Moist (moistS 0.5) fun _ => 0.7 where
  tk i hi := by
    have h3 : (i : ℝ) < 3 := by exact_mod_cast hi
    have h0 : (0 : ℝ) ≤ i := Nat.cast_nonneg i
    simp only [moistS, realS]
    constructor <;> linarith
  p i hi := by
    have h3 : (i : ℝ) < 3 := by exact_mod_cast hi
    have h0 : (0 : ℝ) ≤ i := Nat.cast_nonneg i
    simp only [moistS, realS]
    constructor <;> linarith
  rh i _ := by simp only [moistS]; norm_num
  vapour i hi := by
    have h3 : (i : ℝ) < 3 := by exact_mod_cast hi
    have h0 : (0 : ℝ) ≤ i := Nat.cast_nonneg i
    have h := eswat_le (t := 288 - 6 * i) (by linarith) (by linarith)
    simp only [moistS, realS]
    have : (0.7 : ℝ) * eswat (288 - 6 * i) ≤ 0.7 * 100 := by gcongr
    linarith [(by norm_num : (0.7 : ℝ) * 100 = 70)]

/-- Raising the humidity from 50 to 70 per cent raises the absorption by water vapour at every level, at 22 and 23 GHz and
at both angles, with each of the seven models. -/
example (m : String) (hm : m ∈ ["R98", "R03", "R16", "R17", "R18", "R19", "R20"]) (j k i : ℕ) (hj : j < 2) (hk : k < 2)
    (hi : i < 3) :
    (∃ rows, (execute shipped (selected Globals.init m) ⟨moistS 0.5, Store.zero⟩).1 = .ok rows) ∧
    (∃ rows, (execute shipped (selected Globals.init m) ⟨moistS 0.7, Store.zero⟩).1 = .ok rows) ∧
    ((execute shipped (selected Globals.init m) ⟨moistS 0.5, Store.zero⟩).2.out.cell j k).awet i <
      ((execute shipped (selected Globals.init m) ⟨moistS 0.7, Store.zero⟩).2.out.cell j k).awet i := by
  have run (r : ℝ) (h0 : 0 ≤ r) (h1 : r ≤ 1) :
      ∃ rows, (execute shipped (selected Globals.init m) ⟨moistS r, Store.zero⟩).1 = .ok rows :=
    (C32_init_absmdl m Globals.init (I := ⟨moistS r, Store.zero⟩) (moistS_good h0 h1) rfl
      (fun h => by simp [ozoneActive, Globals.init] at h) (realS_frq false)).1 (by
        simp only [List.mem_cons, List.not_mem_nil, or_false] at hm ⊢; tauto)
  obtain ⟨rows, h⟩ := run 0.5 (by norm_num) (by norm_num)
  obtain ⟨rows', h'⟩ := run 0.7 (by norm_num) (by norm_num)
  refine ⟨⟨rows, h⟩, ⟨rows', h'⟩, ?_⟩
  have key := C114_run hm (g := selected Globals.init m) rfl (I := ⟨moistS 0.5, Store.zero⟩)
    (I' := ⟨moistS 0.7, Store.zero⟩) (r := fun _ => 0.7) rfl h h' rfl rfl rfl (show 1 ≤ 3 by decide)
    (fun i _ => by simp [moistS, realS, demoS]) moistS_moist hj hk ((moistS_good (by norm_num) (by norm_num)).frq j hj)
    (demo_angles k hk).1 (demo_angles k hk).2
  exact (key.1 i hi).2.2 (by simp only [moistS]; norm_num)

/-- One level at 1000 hPa and 290 K: from 10 to 20 hPa of vapour, at 22.235 GHz. -/
example {g : Globals} {W : LineList} {r r' : ℝ × ℝ} (hW : waterFile "R17" = some W) (hg : g.sel.h2o = some "R17")
    (hl : g.h2oll = reloadLL W Globals.init.h2oll) (h : clearLevel shipped g none 1000 290 10 22.235 0 = .ok r)
    (h' : clearLevel shipped g none 1000 290 20 22.235 0 = .ok r') : r.1 < r'.1 :=
  (C114_level (by decide) hW hg hl (by norm_num) (by norm_num) (by norm_num) (by norm_num) (by norm_num) (by norm_num)
    (by norm_num) (by norm_num) h h').2

end Verif.Props
