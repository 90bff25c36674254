import Verif.Lemmas.WaterSum
import Mathlib.Tactic.IntervalCases
import Mathlib.Topology.Algebra.Order.Field
import Mathlib.Topology.Order.OrderClosed
import Mathlib.Tactic.Continuity

/-!
# Self-continuum of water vapour (C36)
-/

namespace Verif.Props

open Verif.Model Verif.Py Verif.Lemmas Verif.Spec

/-- The values of the self-continuum at the multiples of 10 cm⁻¹ and their temperature exponents, copied from the code (which
names MT-CKD 4.1, 296 K, as its source), scaled; even in frequency. -/
noncomputable def ckdNode (vx : ℝ) : ℤ → ℝ := fun k =>
  let theta := 296 / (300 / vx)
  let v (c e : ℝ) : ℝ := 6.532e12 * c * theta ^ (e + 3)
  match k.natAbs with
  | 0 => v 2.877e-21 6.413
  | 1 => v 2.855e-21 6.414
  | 2 => v 2.731e-21 6.275
  | 3 => v 2.49e-21 6.049
  | 4 => v 2.178e-21 5.789
  | 5 => v 1.863e-21 5.557
  | _ => 0

/-- 10 cm⁻¹ in GHz -/
noncomputable def ckdStep : ℝ := 299.792458

theorem selfNodes_eq (vx : ℝ) : selfNodes vx = [ckdNode vx (-1), ckdNode vx 0, ckdNode vx 1, ckdNode vx 2,
    ckdNode vx 3, ckdNode vx 4, ckdNode vx 5] := by
  have h : (300.0 : ℝ) = 300 := by norm_num
  simp only [selfNodes, ckdNode, h]
  rfl

/-- Cubic through two neighbours with slopes from the next two. -/
noncomputable def cubic (a b c d p : ℝ) : ℝ :=
  -a * (0.5 * p * (1 - p) * (1 - p)) + b * (1 - (3 - 2 * p) * p * p + 0.5 * p * (1 - p) * p)
    + c * ((3 - 2 * p) * p * p + 0.5 * p * (1 - p) * (1 - p)) - d * (0.5 * p * (1 - p) * p)

theorem h2oContinuum_eq (vx : ℝ) {f : ℝ} {k : ℤ} (hk : 0 ≤ k ∧ k ≤ 3) (h1 : k * ckdStep ≤ f)
    (h2 : f < (k + 1) * ckdStep) :
    h2oContinuum f vx = .ok (cubic (ckdNode vx (k - 1)) (ckdNode vx k) (ckdNode vx (k + 1)) (ckdNode vx (k + 2))
      (f / ckdStep - k)) := by
  have hs : (0 : ℝ) < ckdStep := by unfold ckdStep; norm_num
  have hfl : ⌊f / ckdStep⌋ = k := by
    rw [Int.floor_eq_iff, le_div_iff₀ hs, div_lt_iff₀ hs]
    exact ⟨h1, h2⟩
  have hf0 : 0 ≤ f / ckdStep := by
    have : (0 : ℝ) ≤ k := by exact_mod_cast hk.1
    exact div_nonneg (by nlinarith) hs.le
  unfold h2oContinuum
  change (do
    let u0 ← pyGet (selfNodes vx) (min (if 0 ≤ f / ckdStep then ⌊f / ckdStep⌋ else ⌈f / ckdStep⌉) 4)
    let u1 ← pyGet (selfNodes vx) (min (if 0 ≤ f / ckdStep then ⌊f / ckdStep⌋ else ⌈f / ckdStep⌉) 4 + 1)
    let u2 ← pyGet (selfNodes vx) (min (if 0 ≤ f / ckdStep then ⌊f / ckdStep⌋ else ⌈f / ckdStep⌉) 4 + 2)
    let u3 ← pyGet (selfNodes vx) (min (if 0 ≤ f / ckdStep then ⌊f / ckdStep⌋ else ⌈f / ckdStep⌉) 4 + 3)
    return cubic u0 u1 u2 u3 (f / ckdStep
      - (min (if 0 ≤ f / ckdStep then ⌊f / ckdStep⌋ else ⌈f / ckdStep⌉) 4 : ℤ))) = _
  rw [if_pos hf0, hfl, selfNodes_eq]
  obtain ⟨h0, h3⟩ := hk
  interval_cases k <;> simp [pyGet, bind, Except.bind, pure, Except.pure]

/-- C36: at the tabulated frequencies the tabulated value comes out. -/
theorem C36_nodes (vx : ℝ) {k : ℤ} (hk : 0 ≤ k ∧ k ≤ 3) : h2oContinuum (k * ckdStep) vx = .ok (ckdNode vx k) := by
  have hs : (0 : ℝ) < ckdStep := by unfold ckdStep; norm_num
  rw [h2oContinuum_eq vx hk le_rfl (by nlinarith), mul_div_assoc, div_self hs.ne']
  simp [cubic]

example : h2oContinuum (2 * ckdStep) 1 = .ok (ckdNode 1 2) := by
  have := C36_nodes 1 (k := 2) (by norm_num)
  simpa using this

theorem cubic_ends (a b c d : ℝ) : cubic a b c d 0 = b ∧ cubic a b c d 1 = c := by
  constructor <;> (simp [cubic]; try norm_num)

/-- The cubic over interval `k`, as a function of frequency. -/
noncomputable def piece (vx : ℝ) (k : ℤ) (f : ℝ) : ℝ :=
  cubic (ckdNode vx (k - 1)) (ckdNode vx k) (ckdNode vx (k + 1)) (ckdNode vx (k + 2)) (f / ckdStep - k)

theorem piece_continuous (vx : ℝ) (k : ℤ) : Continuous (piece vx k) := by
  unfold piece cubic
  fun_prop

theorem piece_joins (vx : ℝ) (k : ℤ) : piece vx k ((k + 1) * ckdStep) = piece vx (k + 1) ((k + 1) * ckdStep) := by
  have hs : ckdStep ≠ 0 := by unfold ckdStep; norm_num
  unfold piece
  rw [mul_div_assoc, div_self hs]
  push_cast
  rw [show (k + 1 : ℝ) * 1 - k = 1 by ring, show (k + 1 : ℝ) * 1 - (k + 1) = 0 by ring, (cubic_ends _ _ _ _).2,
    (cubic_ends _ _ _ _).1]

/-- C36: as a function of frequency the self-continuum has no jumps. -/
theorem C36_continuous (vx : ℝ) :
    ∃ g : ℝ → ℝ, Continuous g ∧ ∀ f, 0 ≤ f → f < 4 * ckdStep → h2oContinuum f vx = .ok (g f) := by
  have hs : (0 : ℝ) < ckdStep := by unfold ckdStep; norm_num
  have j0 : piece vx 0 ckdStep = piece vx 1 ckdStep := by have := piece_joins vx 0; simpa using this
  have j1 : piece vx 1 (2 * ckdStep) = piece vx 2 (2 * ckdStep) := by
    have := piece_joins vx 1; norm_num at this; exact this
  have j2 : piece vx 2 (3 * ckdStep) = piece vx 3 (3 * ckdStep) := by
    have := piece_joins vx 2; norm_num at this; exact this
  refine ⟨fun f => if f ≤ ckdStep then piece vx 0 f else if f ≤ 2 * ckdStep then piece vx 1 f
    else if f ≤ 3 * ckdStep then piece vx 2 f else piece vx 3 f, ?_, ?_⟩
  · refine Continuous.if_le (piece_continuous vx 0) (Continuous.if_le (piece_continuous vx 1)
      (Continuous.if_le (piece_continuous vx 2) (piece_continuous vx 3) continuous_id continuous_const ?_)
      continuous_id continuous_const ?_) continuous_id continuous_const ?_
    · rintro f rfl; exact j2
    · rintro f rfl; rw [if_pos (by linarith)]; exact j1
    · rintro f rfl; rw [if_pos (by linarith)]; exact j0
  · intro f h0 h4
    have key (k : ℤ) (hk : 0 ≤ k ∧ k ≤ 3) (h1 : k * ckdStep ≤ f) (h2 : f < (k + 1) * ckdStep) :
        h2oContinuum f vx = .ok (piece vx k f) := h2oContinuum_eq vx hk h1 h2
    simp only
    split_ifs with h1 h2 h3
    · rcases h1.lt_or_eq with h1 | rfl
      · exact key 0 (by norm_num) (by simpa using h0) (by simpa using h1)
      · rw [j0]; exact key 1 (by norm_num) (by simp) (by norm_num; linarith)
    · push Not at h1
      rcases h2.lt_or_eq with h2 | rfl
      · exact key 1 (by norm_num) (by simpa using h1.le) (by norm_num; exact h2)
      · rw [j1]; exact key 2 (by norm_num) (by simp) (by norm_num; linarith)
    · push Not at h2
      rcases h3.lt_or_eq with h3 | rfl
      · exact key 2 (by norm_num) (by simpa using h2.le) (by norm_num; exact h3)
      · rw [j2]; exact key 3 (by norm_num) (by simp) (by norm_num; linarith)
    · push Not at h3
      exact key 3 (by norm_num) (by simpa using h3.le) (by norm_num; exact h4)

theorem cubic_pos {a b c d p : ℝ} (hb : 0 < b) (hc : 0 < c) (ha : a ≤ 4 * b) (hd : d ≤ 4 * c) (h0 : 0 ≤ p)
    (h1 : p < 1) : 0 < cubic a b c d p := by
  have e : cubic a b c d p = 0.5 * p * (1 - p) ^ 2 * (4 * b - a) + 0.5 * p ^ 2 * (1 - p) * (4 * c - d)
      + b * ((1 - p) ^ 2 + 0.5 * p ^ 2 * (1 - p)) + c * (p ^ 2 + 0.5 * p * (1 - p) ^ 2) := by
    unfold cubic
    ring
  rw [e]
  have hq : 0 < 1 - p := by linarith
  have t1 : 0 ≤ 0.5 * p * (1 - p) ^ 2 * (4 * b - a) := mul_nonneg (by positivity) (by linarith)
  have t2 : 0 ≤ 0.5 * p ^ 2 * (1 - p) * (4 * c - d) := mul_nonneg (by positivity) (by linarith)
  have t3 : 0 < b * ((1 - p) ^ 2 + 0.5 * p ^ 2 * (1 - p)) := by positivity
  have t4 : 0 ≤ c * (p ^ 2 + 0.5 * p * (1 - p) ^ 2) := by positivity
  linarith

/-- Small powers of a moderate number are moderate. -/
theorem rpow_le_three {x d : ℝ} (h1 : 1 / 9 ≤ x) (h2 : x ≤ 9) (hd : |d| ≤ 1 / 2) : x ^ d ≤ 3 := by
  have hx : 0 < x := by linarith
  have h9 : (9 : ℝ) ^ (1 / 2 : ℝ) = 3 := by
    rw [← Real.sqrt_eq_rpow, show (9 : ℝ) = 3 ^ 2 by norm_num, Real.sqrt_sq (by norm_num)]
  obtain ⟨hd1, hd2⟩ := abs_le.1 hd
  rcases le_total 0 d with h | h
  · calc x ^ d ≤ 9 ^ d := Real.rpow_le_rpow hx.le h2 h
      _ ≤ 9 ^ (1 / 2 : ℝ) := Real.rpow_le_rpow_of_exponent_le (by norm_num) hd2
      _ = 3 := h9
  · calc x ^ d = (x⁻¹) ^ (-d) := by rw [Real.inv_rpow hx.le, Real.rpow_neg hx.le, inv_inv]
      _ ≤ 9 ^ (-d) := Real.rpow_le_rpow (by positivity) (by rw [inv_le_comm₀ hx (by norm_num)]; linarith) (by linarith)
      _ ≤ 9 ^ (1 / 2 : ℝ) := Real.rpow_le_rpow_of_exponent_le (by norm_num) (by linarith)
      _ = 3 := h9

theorem node_ratio {x c e c' e' : ℝ} (h1 : 1 / 9 ≤ x) (h2 : x ≤ 9) (hc : 0 < c') (hcc : c ≤ 1.2 * c')
    (he : |e - e'| ≤ 1 / 2) :
    6.532e12 * c * x ^ (e + 3) ≤ 4 * (6.532e12 * c' * x ^ (e' + 3)) := by
  have hx : 0 < x := by linarith
  have h3 := rpow_le_three h1 h2 he
  have e1 : x ^ (e + 3) = x ^ (e - e') * x ^ (e' + 3) := by rw [← Real.rpow_add hx]; congr 1; ring
  rw [e1]
  have hp : 0 < x ^ (e' + 3) := by positivity
  have hp' : 0 < x ^ (e - e') := by positivity
  have : c * x ^ (e - e') ≤ 1.2 * c' * 3 := mul_le_mul hcc h3 hp'.le (by positivity)
  have : c * x ^ (e - e') * x ^ (e' + 3) ≤ 1.2 * c' * 3 * x ^ (e' + 3) := mul_le_mul_of_nonneg_right this hp.le
  have h4 : 0 < c' * x ^ (e' + 3) := by positivity
  nlinarith

/-- C36: between 34 K and 2500 K the interpolation does not undershoot zero. -/
theorem C36_positive {vx f : ℝ} (h1 : 0.12 ≤ vx) (h2 : vx ≤ 8.8) (h0 : 0 ≤ f) (h4 : f < 4 * ckdStep) :
    ∃ c, h2oContinuum f vx = .ok c ∧ 0 < c := by
  have hs : (0 : ℝ) < ckdStep := by unfold ckdStep; norm_num
  have hv : 0 < vx := by norm_num at h1; linarith
  have ht1 : 1 / 9 ≤ 296 / (300 / vx) := by rw [div_div_eq_mul_div]; norm_num at h1 ⊢; linarith
  have ht2 : 296 / (300 / vx) ≤ 9 := by rw [div_div_eq_mul_div]; norm_num at h2 ⊢; linarith
  have ht : 0 < 296 / (300 / vx) := by positivity
  have key (k : ℤ) (hk : 0 ≤ k ∧ k ≤ 3) (hl : k * ckdStep ≤ f) (hu : f < (k + 1) * ckdStep) :
      ∃ c, h2oContinuum f vx = .ok c ∧ 0 < c := by
    refine ⟨_, h2oContinuum_eq vx hk hl hu, ?_⟩
    have hp0 : 0 ≤ f / ckdStep - k := by rw [sub_nonneg, le_div_iff₀ hs]; exact hl
    have hp1 : f / ckdStep - k < 1 := by rw [sub_lt_iff_lt_add', div_lt_iff₀ hs]; linarith
    obtain ⟨hk0, hk3⟩ := hk
    have hpow (y : ℝ) : 0 < (296 / (300 / vx)) ^ y := Real.rpow_pos_of_pos ht y
    refine cubic_pos ?_ ?_ ?_ ?_ hp0 hp1
    · interval_cases k <;> (simp only [ckdNode]; norm_num; positivity)
    · interval_cases k <;> (simp only [ckdNode]; norm_num; positivity)
    · interval_cases k <;>
        (simp only [ckdNode]
         exact node_ratio ht1 ht2 (by norm_num) (by norm_num) (by norm_num [abs_le]))
    · interval_cases k <;>
        (simp only [ckdNode]
         exact node_ratio ht1 ht2 (by norm_num) (by norm_num) (by norm_num [abs_le]))
  rcases lt_or_ge f (1 * ckdStep) with h | h
  · exact key 0 (by norm_num) (by simpa using h0) (by simpa using h)
  rcases lt_or_ge f (2 * ckdStep) with h' | h'
  · exact key 1 (by norm_num) (by simpa using h) (by norm_num; exact h')
  rcases lt_or_ge f (3 * ckdStep) with h'' | h''
  · exact key 2 (by norm_num) (by simpa using h') (by norm_num; exact h'')
  · exact key 3 (by norm_num) (by simpa using h'') (by norm_num; exact h4)

example : ∃ c, h2oContinuum 183.31 (300 / 280) = .ok c ∧ 0 < c :=
  C36_positive (by norm_num) (by norm_num) (by norm_num) (by unfold ckdStep; norm_num)

/-- C36: from 1199.17 GHz on the look-up runs off the table, although the table ends at 1498.96 GHz. -/
theorem C36_out_of_table (vx : ℝ) {f : ℝ} (h : 4 * ckdStep ≤ f) : h2oContinuum f vx = .error .indexError := by
  have hs : (0 : ℝ) < ckdStep := by unfold ckdStep; norm_num
  have hf : 4 ≤ f / 299.792458 := by
    rw [le_div_iff₀ (by norm_num)]; exact h
  have hfl : (4 : ℤ) ≤ ⌊f / 299.792458⌋ := by rw [Int.le_floor]; exact_mod_cast hf
  unfold h2oContinuum
  have h0 : 0 ≤ f / 299.792458 := by linarith
  simp only [if_pos h0, min_eq_right hfl, selfNodes_eq]
  simp [pyGet, bind, Except.bind]

example : h2oContinuum 1250 1 = .error .indexError := C36_out_of_table 1 (by unfold ckdStep; norm_num)

theorem newCon {m : String} (hm : m ∈ ["R23SD", "R24"]) {F : LineList} (hF : waterFile m = some F) (old : LineList)
    (G : GoodLines (reloadLL F old)) : G.xcs 0 = 0 ∧ ¬ 0 < G.cs 0 := by
  have h1 := G.hcs
  have h2 := G.hxcs
  have key (T : RawTable) (hT : T.ctr = ⟨[2960000000000000, 5547, 30000000000000, -10000000000000, 0], 13⟩)
      (hl : waterGroups.lookup m = some T) (hc : lastAssign (waterAssign m) "cs" = some (.ctr 3))
      (hx : lastAssign (waterAssign m) "xcs" = some (.ctr 4)) : G.xcs 0 = 0 ∧ ¬ 0 < G.cs 0 := by
    unfold waterFile at hF
    rw [hl, Option.map_some, Option.some_inj] at hF
    have e1 : reloadLL F old "cs" = some fun _ => T.ctr.val 3 := reload_some (by
      rw [← hF]; simp [hc, Src.val, hT])
    have e2 : reloadLL F old "xcs" = some fun _ => T.ctr.val 4 := reload_some (by
      rw [← hF]; simp [hx, Src.val, hT])
    rw [h1, Option.some_inj] at e1
    rw [h2, Option.some_inj] at e2
    rw [e1, e2, hT]
    simp [Col.val]
  simp only [List.mem_cons, List.not_mem_nil, or_false] at hm
  rcases hm with rfl | rfl
  · exact key waterR23SD rfl rfl (by decide) (by decide)
  · exact key waterR24 rfl rfl (by decide) (by decide)

/-- C36: so the models that take the self-continuum from the table fail for moist air from that frequency on, where all
other models answer. -/
theorem C36_fails {m : String} (hm : m ∈ ["R23SD", "R24"]) {F : LineList} (hF : waterFile m = some F) (old : LineList)
    {p vx e f : ℝ} (hv : 0 < vx) (he : e ≠ 0) (hf : 4 * ckdStep ≤ f) :
    h2oAbsorption m (reloadLL F old) p vx e f = .error .indexError := by
  obtain ⟨G⟩ := goodLines_of_file hF old
  obtain ⟨-, hcs⟩ := newCon hm hF old G
  have hm' : m ≠ "MWL24" := by rintro rfl; revert hm; decide
  have hm'' : m ∉ ["R03", "R98"] := by
    simp only [List.mem_cons, List.not_mem_nil, or_false] at hm ⊢
    rcases hm with rfl | rfl <;> decide
  unfold h2oAbsorption
  rw [if_pos hv]
  simp only
  rw [if_neg (fun h => he ((waterAir_rho_zero hv).1 h))]
  have hc : ∃ c, waterCon m (reloadLL F old) (waterAir m p vx e) vx f = .ok c := by
    unfold waterCon
    simp only [attr_some G.hreftcon, attr_some G.hcf, attr_some G.hxcf, attr_some G.hcs, attr_some G.hxcs, bind,
      Except.bind, pure, Except.pure, if_neg hm', if_neg hm'']
    exact ⟨_, rfl⟩
  obtain ⟨c, hc⟩ := hc
  have hcn : waterConNew (reloadLL F old) (waterAir m p vx e) vx f = .error .indexError := by
    unfold waterConNew
    simp only [attr_some G.hreftline, attr_some G.hcf, attr_some G.hxcf, attr_some G.hcs, attr_some G.hxcs, bind,
      Except.bind, if_neg hcs, C36_out_of_table vx hf]
  simp only [hc, bind, Except.bind, if_pos hm, hcn]

example : ∃ F, waterFile "R24" = some F ∧
    h2oAbsorption "R24" (reloadLL F fun _ => none) 100 1 1 1250 = .error .indexError :=
  ⟨_, rfl, C36_fails (by decide) rfl _ one_pos one_ne_zero (by unfold ckdStep; norm_num)⟩

/-- C36: below it their continuum is positive. -/
theorem C36_new_models {m : String} (hm : m ∈ ["R23SD", "R24"]) {F : LineList} (hF : waterFile m = some F)
    (old : LineList) {p vx e f : ℝ} (hp : 0 ≤ p) (h1 : 0.12 ≤ vx) (h2 : vx ≤ 8.8) (he : 0 < e) (hf0 : 0 < f)
    (hf : f < 4 * ckdStep) :
    ∃ c, waterConNew (reloadLL F old) (waterAir m p vx e) vx f = .ok (some c) ∧ 0 < c := by
  obtain ⟨G⟩ := goodLines_of_file hF old
  obtain ⟨-, hcs⟩ := newCon hm hF old G
  have hv : 0 < vx := by norm_num at h1; linarith
  obtain ⟨ht, hr, hpv, hpd, hden⟩ := waterAir_props m hp hv he
  obtain ⟨s, hs, hs0⟩ := C36_positive h1 h2 hf0.le hf
  have hti : 0 < G.reftline 0 / (waterAir m p vx e).t := div_pos G.preft.1 ht
  have := G.preft.2.2
  unfold waterConNew
  simp only [attr_some G.hreftline, attr_some G.hcf, attr_some G.hxcf, attr_some G.hcs, attr_some G.hxcs, bind,
    Except.bind, if_neg hcs, hs, fpow_of_pos hti, pure, Except.pure, Option.map_some]
  exact ⟨_, rfl, by positivity⟩

/-- C36: giving these models a positive self-continuum coefficient (as the uncertainty tools allow) while keeping their
own temperature exponent, which is zero, removes the self-continuum instead: the coefficient is multiplied by the
exponent, not raised to it. -/
theorem C36_override {ll : LineList} (G : GoodLines ll) (A : WaterAir) (vx f : ℝ) (hcs : 0 < G.cs 0)
    (hx : G.xcs 0 = 0) (ht : 0 < A.t) :
    waterConNew ll A vx f =
      .ok (some (G.cf 0 * (G.reftline 0 / A.t) ^ G.xcf 0 * A.pda * A.pvap * f ^ 2)) := by
  have hti : 0 < G.reftline 0 / A.t := div_pos G.preft.1 ht
  unfold waterConNew
  simp only [attr_some G.hreftline, attr_some G.hcf, attr_some G.hxcf, attr_some G.hcs, attr_some G.hxcs, bind,
    Except.bind, if_pos hcs, fpow_of_pos hti, pure, Except.pure, Option.map_some, hx, mul_zero, zero_mul, add_zero]

/-- The shipped R24 list with its self-continuum coefficient set to 1 is such a list. -/
example : ∃ F, waterFile "R24" = some F ∧ ∃ G : GoodLines (reloadLL (fun a => if a = "cs" then some fun _ => 1 else none) F),
    0 < G.cs 0 ∧ G.xcs 0 = 0 := by
  refine ⟨_, rfl, ?_⟩
  obtain ⟨G⟩ := goodLines_of_file (m := "R24") rfl fun _ => none
  have key (a : String) (ha : a ≠ "cs") {v : Val} (F : LineList) (h : reloadLL F (fun _ => none) a = some v) :
      reloadLL (fun a => if a = "cs" then some fun _ => 1 else none) F a = some v := by
    simp only [reloadLL, if_neg ha] at h ⊢
    simpa using h
  refine ⟨⟨G.n, G.fl, G.s1, G.b2, G.w0, G.x, G.w0s, G.xs, G.reftline, G.reftcon, G.cf, G.xcf, G.xcs, fun _ => 1,
    key _ (by decide) _ G.hn, key _ (by decide) _ G.hfl, key _ (by decide) _ G.hs1, key _ (by decide) _ G.hb2,
    key _ (by decide) _ G.hw0, key _ (by decide) _ G.hx, key _ (by decide) _ G.hw0s, key _ (by decide) _ G.hxs,
    key _ (by decide) _ G.hreftline, key _ (by decide) _ G.hreftcon, key _ (by decide) _ G.hcf,
    key _ (by decide) _ G.hxcf, by simp [reloadLL], key _ (by decide) _ G.hxcs, G.pos, G.preft⟩, by norm_num, ?_⟩
  exact (newCon (m := "R24") (by decide) rfl _ G).1

end Verif.Props
