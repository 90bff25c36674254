import Verif.Model.Cloud
import Verif.Model.Vapor
import Verif.Props.Radiance

/-!
# C19, C20: cloud radiating temperature and water vapour
-/

namespace Verif.Spec
open Real
variable {B τ : ℕ → ℝ} {n b c : ℕ} {lo hi : ℝ}

/-- Emission of the layers between two levels, seen from below, is bounded by the radiances of the levels
between them times the transmittance lost. -/
theorem skyRadiance_diff_bounds (h : b ≤ c) (hτ : ∀ i, b < i → i ≤ c → 0 ≤ τ i)
    (hB : ∀ i, b ≤ i → i ≤ c → lo ≤ B i ∧ B i ≤ hi) :
    lo * (transDown τ b - transDown τ c) ≤ skyRadiance B τ c - skyRadiance B τ b ∧
    skyRadiance B τ c - skyRadiance B τ b ≤ hi * (transDown τ b - transDown τ c) := by
  induction c, h using Nat.le_induction with
  | base => simp
  | succ c hc ih =>
    obtain ⟨h1, h2⟩ := ih (fun i h h' => hτ i h (by omega)) (fun i h h' => hB i h (by omega))
    have hd := sub_nonneg.2 (transDown_anti (hτ (c + 1) (by omega) le_rfl))
    have hl := le_layerSource (t := τ (c + 1)) (hB c hc (by omega)).1 (hB (c + 1) (by omega) le_rfl).1
    have hu := layerSource_le (t := τ (c + 1)) (hB c hc (by omega)).2 (hB (c + 1) (by omega) le_rfl).2
    have h3 := mul_le_mul_of_nonneg_right hl hd
    have h4 := mul_le_mul_of_nonneg_right hu hd
    rw [skyRadiance_succ]
    constructor <;> linarith

theorem upRadiance_diff_bounds (h : b ≤ c) (hcn : c ≤ n) (hτ : ∀ i, b < i → i ≤ c → 0 ≤ τ i)
    (hB : ∀ i, b ≤ i → i ≤ c → lo ≤ B i ∧ B i ≤ hi) :
    lo * (transUp τ n c - transUp τ n b) ≤ upRadiance B τ n b - upRadiance B τ n c ∧
    upRadiance B τ n b - upRadiance B τ n c ≤ hi * (transUp τ n c - transUp τ n b) := by
  induction h using Nat.decreasingInduction with
  | self => simp
  | of_succ k hk ih =>
    obtain ⟨h1, h2⟩ := ih (fun i h h' => hτ i (by omega) h') (fun i h h' => hB i (by omega) h')
    have hd := sub_nonneg.2 (transUp_mono (n := n) (i := k) (by omega) (hτ (k + 1) (by omega) hk))
    have hl := le_layerSource (t := τ (k + 1)) (hB (k + 1) (by omega) hk).1 (hB k le_rfl (by omega)).1
    have hu := layerSource_le (t := τ (k + 1)) (hB (k + 1) (by omega) hk).2 (hB k le_rfl (by omega)).2
    have h3 := mul_le_mul_of_nonneg_right hl hd
    have h4 := mul_le_mul_of_nonneg_right hu hd
    rw [upRadiance_step (i := k) (by omega)]
    constructor <;> linarith

end Verif.Spec

namespace Verif.Props

open Verif.Py Verif.Spec Verif.Model Real

variable {frq es m M : ℝ} {nl base top : ℕ} {t τ : ℕ → ℝ} {out : PlanckOut}

/-! ## C19 -/

/-- The function returns `None` exactly when the opacity between antenna and cloud base exceeds 125 Np. -/
theorem C19_none_iff (hvk : ℝ) (tauprof boftatm : ℕ → ℝ) :
    cloudTemp base top hvk tauprof boftatm = none ↔ 125 < tauprof base := by
  unfold cloudTemp
  rw [expmax_eq]
  constructor
  · intro h
    by_contra hn
    rw [if_neg hn] at h
    cases h
  · intro h; rw [if_pos h]

/-- Looking up: cloud opacity in (0,125] and at most 125 Np below the cloud: the cloud radiating temperature
lies between the coldest and the warmest level from base to top. -/
theorem C19_between_ground (hf : 0 < frq) (hbt : base ≤ top) (htn : top < nl) (hm : 0 < m)
    (hT : ∀ i, base ≤ i → i ≤ top → m ≤ t i ∧ t i ≤ M) (hτ : ∀ i, base < i → i ≤ top → 0 ≤ τ i)
    (h : planck false es frq nl t τ = some out)
    (hb : out.tauprof base ≤ 125) (hc0 : 0 < out.tauprof top - out.tauprof base)
    (hc1 : out.tauprof top - out.tauprof base ≤ 125) :
    ∃ T, cloudTemp base top out.hvk out.tauprof out.boftatm = some (some T) ∧ m ≤ T ∧ T ≤ M := by
  obtain ⟨hn, e1, -, e3, e4, -⟩ := planck_ground h
  have hM : 0 < M := hm.trans_le ((hT base le_rfl hbt).1.trans (hT base le_rfl hbt).2)
  have hB : ∀ i, base ≤ i → i ≤ top → tk2b (hvkOf frq) m ≤ tk2b (hvkOf frq) (t i) ∧
      tk2b (hvkOf frq) (t i) ≤ tk2b (hvkOf frq) M := fun i h1 h2 =>
    ⟨tk2b_mono (hvkOf_pos hf) hm (hT i h1 h2).1,
      tk2b_mono (hvkOf_pos hf) (hm.trans_le (hT i h1 h2).1) (hT i h1 h2).2⟩
  have hd := skyRadiance_diff_bounds hbt hτ hB
  rw [← e4 top htn, ← e4 base (by omega)] at hd
  unfold transDown at hd
  rw [← e3 top htn, ← e3 base (by omega)] at hd
  unfold cloudTemp
  rw [expmax_eq, if_neg (not_lt.2 hb)]
  simp only [norm_one]
  rw [if_neg (not_lt.2 hc1)]
  have hlt : exp (-(out.tauprof top - out.tauprof base)) < 1 := by rw [exp_lt_one_iff]; linarith
  rw [npDiv_of_ne (by linarith)]
  have hpos : 0 < exp (-out.tauprof base) - exp (-out.tauprof top) := by
    have := exp_lt_exp.2 (show -out.tauprof top < -out.tauprof base by linarith)
    linarith
  have key : (out.boftatm top - out.boftatm base) * exp (out.tauprof base) /
      (1 - exp (-(out.tauprof top - out.tauprof base))) =
      (out.boftatm top - out.boftatm base) / (exp (-out.tauprof base) - exp (-out.tauprof top)) := by
    have h1 : exp (out.tauprof base) * (exp (-out.tauprof base) - exp (-out.tauprof top)) =
        1 - exp (-(out.tauprof top - out.tauprof base)) := by
      rw [mul_sub, ← exp_add, ← exp_add]; simp; ring
    rw [← h1]
    have := (exp_pos (out.tauprof base)).ne'
    field_simp
  rw [key, e1]
  obtain ⟨T, hT1, hT2⟩ := bright_between (hvkOf_pos hf) hm hM ((le_div_iff₀ hpos).2 hd.1)
    ((div_le_iff₀ hpos).2 hd.2)
  exact ⟨T, by simp [hT1], hT2⟩

/-- Looking down the same holds (the sign of both cloud terms flips): any cloud with non-zero opacity below
at most 125 Np of atmosphere. -/
theorem C19_between_satellite (hf : 0 < frq) (hbt : base ≤ top) (htn : top < nl) (hm : 0 < m)
    (hT : ∀ i, base ≤ i → i ≤ top → m ≤ t i ∧ t i ≤ M) (hτ : ∀ i, base < i → i ≤ top → 0 ≤ τ i)
    (h : planck true es frq nl t τ = some out)
    (hb : out.tauprof base ≤ 125) (hc0 : out.tauprof top < out.tauprof base) :
    ∃ T, cloudTemp base top out.hvk out.tauprof out.boftatm = some (some T) ∧ m ≤ T ∧ T ≤ M := by
  obtain ⟨hn, e1, -, e3, e4, -⟩ := planck_sat h
  have hM : 0 < M := hm.trans_le ((hT base le_rfl hbt).1.trans (hT base le_rfl hbt).2)
  have hB : ∀ i, base ≤ i → i ≤ top → tk2b (hvkOf frq) m ≤ tk2b (hvkOf frq) (t i) ∧
      tk2b (hvkOf frq) (t i) ≤ tk2b (hvkOf frq) M := fun i h1 h2 =>
    ⟨tk2b_mono (hvkOf_pos hf) hm (hT i h1 h2).1,
      tk2b_mono (hvkOf_pos hf) (hm.trans_le (hT i h1 h2).1) (hT i h1 h2).2⟩
  have hd := upRadiance_diff_bounds hbt (show top ≤ nl - 1 by omega) hτ hB
  rw [← e4 top htn, ← e4 base (by omega)] at hd
  unfold transUp at hd
  rw [← e3 top htn, ← e3 base (by omega)] at hd
  unfold cloudTemp
  rw [expmax_eq, if_neg (not_lt.2 hb)]
  simp only [norm_one]
  rw [if_neg (by rw [not_lt]; linarith)]
  have hlt : 1 < exp (-(out.tauprof top - out.tauprof base)) := by rw [one_lt_exp_iff]; linarith
  rw [npDiv_of_ne (by linarith)]
  have hpos : 0 < exp (-out.tauprof top) - exp (-out.tauprof base) := by
    have := exp_lt_exp.2 (show -out.tauprof base < -out.tauprof top by linarith)
    linarith
  have key : (out.boftatm top - out.boftatm base) * exp (out.tauprof base) /
      (1 - exp (-(out.tauprof top - out.tauprof base))) =
      (out.boftatm base - out.boftatm top) / (exp (-out.tauprof top) - exp (-out.tauprof base)) := by
    have h1 : exp (out.tauprof base) * (exp (-out.tauprof base) - exp (-out.tauprof top)) =
        1 - exp (-(out.tauprof top - out.tauprof base)) := by
      rw [mul_sub, ← exp_add, ← exp_add]; simp; ring
    rw [← h1]
    have h2 := (exp_pos (out.tauprof base)).ne'
    have h3 : exp (-out.tauprof base) - exp (-out.tauprof top) ≠ 0 := by
      intro h0; linarith
    field_simp
    ring
  rw [key, e1]
  obtain ⟨T, hT1, hT2⟩ := bright_between (hvkOf_pos hf) hm hM ((le_div_iff₀ hpos).2 hd.1)
    ((div_le_iff₀ hpos).2 hd.2)
  exact ⟨T, by simp [hT1], hT2⟩

/-- A cloud without opacity (in particular base = top) has no finite radiating temperature: 0/0. -/
theorem C19_transparent_cloud (hvk : ℝ) (tauprof boftatm : ℕ → ℝ) (hb : tauprof base ≤ 125)
    (h0 : tauprof top = tauprof base) :
    cloudTemp base top hvk tauprof boftatm = some none := by
  unfold cloudTemp
  rw [expmax_eq, if_neg (not_lt.2 hb), h0]
  simp only [sub_self]
  rw [if_neg (by norm_num)]
  have : (1.0 : ℝ) - exp (-0) = 0 := by norm_num
  rw [this, npDiv_zero]
  rfl

example : ∃ out T, planck false 1 30 4 (fun i => 280 - 10 * i) (fun _ => 0.2) = some out ∧
    cloudTemp 1 2 out.hvk out.tauprof out.boftatm = some (some T) ∧ 260 ≤ T ∧ T ≤ 270 := by
  obtain ⟨out, h⟩ := planck_exists (s := false) (es := 1) (frq := 30)
    (t := fun i => 280 - 10 * i) (τ := fun _ => 0.2) (show (4:ℕ) ≠ 0 by decide)
  have h1 := C06_tau_ground h 1 (by decide)
  have h2 := C06_tau_ground h 2 (by decide)
  norm_num [Finset.sum_Icc_succ_top] at h1 h2
  obtain ⟨T, a, b, c⟩ := C19_between_ground (base := 1) (top := 2) (m := 260) (M := 270)
    (by norm_num) (by decide) (by decide) (by norm_num)
    (fun i hi hi' => by
      have : (i:ℝ) ≤ 2 := by exact_mod_cast hi'
      have : (1:ℝ) ≤ i := by exact_mod_cast hi
      constructor <;> linarith)
    (fun _ _ _ => by norm_num) h (by rw [h1]; norm_num) (by rw [h1, h2]; norm_num)
    (by rw [h1, h2]; norm_num)
  exact ⟨out, T, h, a, b, c⟩

/-! ## C20 -/

variable {rh e rho : ℕ → ℝ}

theorem vaporExponent_eswat (x : ℝ) : (10.0:ℝ) ^ vaporExponent x = eswat x := by
  unfold vaporExponent eswat
  have h10 : (10.0:ℝ) = 10 := by norm_num
  simp only [h10]
  congr 1
  have e1 : ∀ y : ℝ, (-1.0) * 7.90298 * y = -7.90298 * y := fun y => by norm_num
  have e2 : ∀ y : ℝ, (-1.0) * 3.49149 * y = -3.49149 * y := fun y => by norm_num
  rw [e1, e2]

/-- Vapour pressure = humidity × the saturation pressure over water of the utility function. -/
theorem C20_vapor_pressure (h : vapor t rh false = .ok (e, rho)) (i : ℕ) :
    e i = rh i * eswat (t i) := by
  unfold vapor at h
  simp only [Bool.false_eq_true, if_false] at h
  cases h
  rw [← vaporExponent_eswat]

/-- Gas law `e = ρ Rv T`, in the units of the code (`Rv` = 461.52 J/kg/K, 1e-5 for hPa and g/m³). -/
theorem C20_gas_law (h : vapor t rh false = .ok (e, rho)) (i : ℕ) (hT : 0 < t i) :
    e i = rho i * (461.52 * 1e-5) * t i := by
  unfold vapor at h
  simp only [Bool.false_eq_true, if_false] at h
  cases h
  unfold cRwatvap
  have := hT.ne'
  field_simp

/-- Non-negative for non-negative humidity, and positive for positive humidity. -/
theorem C20_nonneg (h : vapor t rh false = .ok (e, rho)) (i : ℕ) (hT : 0 < t i) :
    (0 ≤ rh i → 0 ≤ e i ∧ 0 ≤ rho i) ∧ (0 < rh i → 0 < e i ∧ 0 < rho i) := by
  have hs : 0 < eswat (t i) := by unfold eswat; positivity
  have h1 := C20_vapor_pressure h i
  have h2 := C20_gas_law h i hT
  have hc : (0:ℝ) < 461.52 * 1e-5 * t i := by positivity
  have h3 : rho i = e i / (461.52 * 1e-5 * t i) := by rw [eq_div_iff hc.ne', h2]; ring
  constructor
  · intro hr
    have : 0 ≤ e i := by rw [h1]; positivity
    exact ⟨this, by rw [h3]; positivity⟩
  · intro hr
    have : 0 < e i := by rw [h1]; positivity
    exact ⟨this, by rw [h3]; positivity⟩

/-- Linear in relative humidity (pressure and density). -/
theorem C20_linear {rh' e' rho' : ℕ → ℝ} (c d : ℝ) (h : vapor t rh false = .ok (e, rho))
    (h' : vapor t rh' false = .ok (e', rho')) (hT : ∀ i, 0 < t i) :
    vapor t (fun i => c * rh i + d * rh' i) false =
      .ok (fun i => c * e i + d * e' i, fun i => c * rho i + d * rho' i) := by
  unfold vapor at h h' ⊢
  simp only [Bool.false_eq_true, if_false] at h h' ⊢
  cases h; cases h'
  congr 2
  · funext i; ring
  · funext i
    have := (hT i).ne'
    unfold cRwatvap
    field_simp

/-- Asking for the ice option raises, for every profile. -/
theorem C20_ice_raises (t rh : ℕ → ℝ) : vapor t rh true = .error .typeError := by simp [vapor]

example : ∃ e rho, vapor (fun _ => 280) (fun _ => 0.5) false = .ok (e, rho) ∧ 0 < e 0 ∧
    e 0 = 0.5 * eswat 280 := by
  refine ⟨_, _, rfl, ?_, ?_⟩
  · exact ((C20_nonneg (t := fun _ => 280) (rh := fun _ => 0.5) rfl 0 (by norm_num)).2 (by norm_num)).1
  · exact C20_vapor_pressure (t := fun _ => 280) (rh := fun _ => 0.5) rfl 0

end Verif.Props
