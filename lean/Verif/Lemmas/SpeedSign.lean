import Verif.Lemmas.SpeedShape
import Verif.Lemmas.Humidity

/-!
# Sign of the speed-dependent lines

The profile of a line whose speed dependence is moderate stays above the value of the Lorentz profile at the cut-off; the
lines of the shipped lists are of this kind at temperatures from 200 K to 330 K.
-/

namespace Verif.Lemmas

open Verif.Model Verif.Spec Real

theorem sqrt_half_plane (u : ℂ) : (u ^ (1 / 2 : ℂ)) ^ 2 = u ∧ 0 ≤ (u ^ (1 / 2 : ℂ)).re := by
  constructor
  · have := Complex.cpow_nat_inv_pow u two_ne_zero
    rw [one_div]
    exact_mod_cast this
  · rw [one_div, Complex.cpow_inv_two_re]
    exact Real.sqrt_nonneg _

/-- The speed-dependent profile within ten half-widths of the centre. -/
theorem speedProfile_ge {w w2 d2 d : ℝ} (hw : 0 < w) (h1 : 0.0396 * w ≤ w2) (h2 : w2 ≤ 0.181 * w) (h3 : |d2| ≤ 0.0131 * w)
    (h4 : |d| ≤ 10 * w) : 8.6e-4 / w ≤ speedProfile w w2 d2 d := by
  obtain ⟨b1, b2⟩ := abs_le.1 h3
  obtain ⟨c1, c2⟩ := abs_le.1 h4
  unfold speedProfile
  simp only
  set q : ℂ := ⟨w2, -d2⟩ with hq
  set ζ : ℂ := ⟨w - 3 / 2 * w2, d + 3 / 2 * d2⟩ with hζ
  have hw2 : 0 < w2 := by linarith
  have q0 : q ≠ 0 := fun h => hw2.ne' (congrArg Complex.re h)
  have A0 : 0.7285 * w ≤ ζ.re := by show 0.7285 * w ≤ w - 3 / 2 * w2; linarith
  have ζ0 : ζ ≠ 0 := fun h => by
    have : ζ.re = 0 := congrArg Complex.re h
    linarith
  have nq : ‖q‖ ≤ 0.1815 * w := by
    refine (pow_le_pow_iff_left₀ (norm_nonneg _) (by positivity) two_ne_zero).1 ?_
    rw [Complex.sq_norm, Complex.normSq_apply]
    show w2 * w2 + -d2 * -d2 ≤ _
    have : w2 * w2 ≤ (0.181 * w) * (0.181 * w) := mul_le_mul h2 h2 hw2.le (by positivity)
    have : d2 ^ 2 ≤ (0.0131 * w) ^ 2 := sq_le_sq' (by linarith) b2
    nlinarith
  have nq' : 0.0396 * w ≤ ‖q‖ := h1.trans ((le_abs_self _).trans (Complex.abs_re_le_norm q))
  have nζ : ‖ζ‖ ≤ 10.1 * w := by
    refine (pow_le_pow_iff_left₀ (norm_nonneg _) (by positivity) two_ne_zero).1 ?_
    rw [Complex.sq_norm, Complex.normSq_apply]
    show (w - 3 / 2 * w2) * (w - 3 / 2 * w2) + (d + 3 / 2 * d2) * (d + 3 / 2 * d2) ≤ _
    have : (w - 3 / 2 * w2) ^ 2 ≤ (0.95 * w) ^ 2 := sq_le_sq' (by linarith) (by linarith)
    have : (d + 3 / 2 * d2) ^ 2 ≤ (10.02 * w) ^ 2 := sq_le_sq' (by linarith) (by linarith)
    nlinarith
  have nζ' : 0.7285 * w ≤ ‖ζ‖ := A0.trans ((le_abs_self _).trans (Complex.abs_re_le_norm ζ))
  obtain ⟨s1, s2⟩ := sqrt_half_plane (ζ / q)
  generalize (ζ / q) ^ (1 / 2 : ℂ) = z at s1 s2 ⊢
  have pq : 0 < ‖q‖ := norm_pos_iff.2 q0
  have pζ : 0 < ‖ζ‖ := norm_pos_iff.2 ζ0
  have nz : ‖z‖ ^ 2 = ‖ζ‖ / ‖q‖ := by rw [← norm_pow, s1, norm_div]
  have z1 : 2 ≤ ‖z‖ := by
    refine (pow_le_pow_iff_left₀ (by norm_num) (norm_nonneg _) two_ne_zero).1 ?_
    rw [nz, le_div_iff₀ pq]
    linarith
  have z2 : ‖z‖ ≤ 16 := by
    refine (pow_le_pow_iff_left₀ (norm_nonneg _) (by norm_num) two_ne_zero).1 ?_
    rw [nz, div_le_iff₀ pq]
    linarith
  have far := hui_far s2 z1 z2
  rw [nz] at far
  set ε : ℂ := z ^ 2 * (2 * (1 - 1.77245385090551603 * z * hui z)) - 1 with hε
  have e : 2 * (1 - 1.77245385090551603 * z * hui z) / q = 1 / ζ + ε / ζ := by
    rw [hε, s1]
    field_simp
    ring
  rw [e, Complex.add_re]
  have r1 : (1 / ζ).re = ζ.re / ‖ζ‖ ^ 2 := by
    rw [one_div, Complex.inv_re, Complex.sq_norm]
  have r2 : -(3.53 * ‖q‖ / ‖ζ‖ ^ 2) ≤ (ε / ζ).re := by
    have a := (abs_le.1 (Complex.abs_re_le_norm (ε / ζ))).1
    refine le_trans (neg_le_neg ?_) a
    rw [norm_div, div_le_div_iff₀ pζ (by positivity)]
    have f2 : ‖ζ‖ * ‖ε‖ ≤ 3.53 * ‖q‖ := by
      rw [div_mul_eq_mul_div, div_le_iff₀ pq] at far
      exact far
    nlinarith
  rw [r1]
  have r3 : 8.6e-4 / w ≤ (ζ.re - 3.53 * ‖q‖) / ‖ζ‖ ^ 2 := by
    rw [div_le_div_iff₀ hw (by positivity)]
    have m1 : ‖ζ‖ ^ 2 ≤ (10.1 * w) ^ 2 := by gcongr
    have m2 : 0.0878 * w ≤ ζ.re - 3.53 * ‖q‖ := by linarith
    have m3 := mul_le_mul_of_nonneg_right m2 hw.le
    nlinarith
  rw [sub_div] at r3
  linarith

theorem localProfile_nonneg (w d : ℝ) : 0 ≤ localProfile w d := le_max_left _ _

/-- Above the value of the Lorentz profile at the cut-off, for half-widths up to 21 GHz. -/
theorem speedProfile_cut {w w2 d2 d : ℝ} (hw : 0 < w) (hw' : w ≤ 21) (h1 : 0.0396 * w ≤ w2) (h2 : w2 ≤ 0.181 * w)
    (h3 : |d2| ≤ 0.0131 * w) (h4 : |d| ≤ 10 * w) : lorentz w 750 < speedProfile w w2 d2 d := by
  refine lt_of_lt_of_le ?_ (speedProfile_ge hw h1 h2 h3 h4)
  unfold lorentz
  rw [div_lt_div_iff₀ (by positivity) hw]
  nlinarith

/-- From the columns of the list to one line. -/
theorem speed_line {w0 w0s x xs e1 e2 v vs da ds θ pd pv : ℝ} (t1 : 0.88 ≤ θ) (t2 : θ ≤ 1.5) (hpd : 0 ≤ pd) (hpv : 0 < pv)
    (hpd' : pd ≤ 1200) (hpv' : pv ≤ 510) (k1 : 0 < w0) (k2 : w0 ≤ 31 / 10000) (k3 : 0 < w0s) (k4 : w0s ≤ 151 / 10000)
    (k5 : 0 ≤ e1) (k6 : e1 ≤ x) (k7 : x ≤ 1) (k8 : 0 ≤ e2) (k9 : e2 ≤ xs) (k10 : xs ≤ 3 / 2)
    (k11 : 297 / 5000 * w0 ≤ v) (k12 : v ≤ 1592 / 10000 * w0) (k13 : 729 / 10000 * w0s ≤ vs) (k14 : vs ≤ 1484 / 10000 * w0s)
    (k15 : |da| ≤ 115 / 10000 * w0) (k16 : |ds| ≤ 1074 / 100000 * w0s) :
    let w := w0 * θ ^ x * pd + w0s * θ ^ xs * pv
    let w2 := v * θ ^ e1 * pd + vs * θ ^ e2 * pv
    0 < w ∧ w ≤ 21 ∧ 0.0396 * w ≤ w2 ∧ w2 ≤ 0.181 * w ∧ |da * pd + ds * pv| ≤ 0.0131 * w := by
  intro w w2
  have t0 : 0 < θ := by linarith
  have px := (theta_pow t1 t2 (x := x) (by linarith)).1 k7
  have pxs := (theta_pow t1 t2 (x := xs) (by linarith)).2.1 k10
  have py := (theta_pow t1 t2 (x := x - e1) (by linarith)).1 (by linarith)
  have pys := (theta_pow t1 t2 (x := xs - e2) (by linarith)).2.1 (by linarith)
  have ex : θ ^ x = θ ^ (x - e1) * θ ^ e1 := by rw [← rpow_add t0]; congr 1; ring
  have exs : θ ^ xs = θ ^ (xs - e2) * θ ^ e2 := by rw [← rpow_add t0]; congr 1; ring
  have q1 : 0 < θ ^ e1 := rpow_pos_of_pos t0 _
  have q2 : 0 < θ ^ e2 := rpow_pos_of_pos t0 _
  have lo1 : 0.0396 * (w0 * θ ^ x) ≤ v * θ ^ e1 := by
    rw [ex]
    have a : w0 * θ ^ (x - e1) ≤ 1.5 * w0 := by have := mul_le_mul_of_nonneg_left py.2 k1.le; linarith
    have b : 0.0396 * (w0 * θ ^ (x - e1)) ≤ v := by linarith
    have := mul_le_mul_of_nonneg_right b q1.le
    linarith
  have up1 : v * θ ^ e1 ≤ 0.181 * (w0 * θ ^ x) := by
    rw [ex]
    have a : 0.88 * w0 ≤ w0 * θ ^ (x - e1) := by have := mul_le_mul_of_nonneg_left py.1 k1.le; linarith
    have b : v ≤ 0.181 * (w0 * θ ^ (x - e1)) := by linarith
    have := mul_le_mul_of_nonneg_right b q1.le
    linarith
  have lo2 : 0.0396 * (w0s * θ ^ xs) ≤ vs * θ ^ e2 := by
    rw [exs]
    have a : w0s * θ ^ (xs - e2) ≤ 1.84 * w0s := by have := mul_le_mul_of_nonneg_left pys.2 k3.le; linarith
    have b : 0.0396 * (w0s * θ ^ (xs - e2)) ≤ vs := by linarith
    have := mul_le_mul_of_nonneg_right b q2.le
    linarith
  have up2 : vs * θ ^ e2 ≤ 0.181 * (w0s * θ ^ xs) := by
    rw [exs]
    have a : 0.82 * w0s ≤ w0s * θ ^ (xs - e2) := by have := mul_le_mul_of_nonneg_left pys.1 k3.le; linarith
    have b : vs ≤ 0.181 * (w0s * θ ^ (xs - e2)) := by linarith
    have := mul_le_mul_of_nonneg_right b q2.le
    linarith
  have wl : 0.88 * w0 ≤ w0 * θ ^ x := by have := mul_le_mul_of_nonneg_left px.1 k1.le; linarith
  have wu : w0 * θ ^ x ≤ 1.5 * w0 := by have := mul_le_mul_of_nonneg_left px.2 k1.le; linarith
  have wsl : 0.82 * w0s ≤ w0s * θ ^ xs := by have := mul_le_mul_of_nonneg_left pxs.1 k3.le; linarith
  have wsu : w0s * θ ^ xs ≤ 1.84 * w0s := by have := mul_le_mul_of_nonneg_left pxs.2 k3.le; linarith
  refine ⟨?_, ?_, ?_, ?_, ?_⟩
  · have : 0 < w0s * θ ^ xs * pv := by have := rpow_pos_of_pos t0 xs; positivity
    have : 0 ≤ w0 * θ ^ x * pd := by have := rpow_pos_of_pos t0 x; positivity
    show 0 < w0 * θ ^ x * pd + w0s * θ ^ xs * pv
    linarith
  · have a : w0 * θ ^ x * pd ≤ 0.00465 * 1200 := mul_le_mul (by linarith) hpd' hpd (by norm_num)
    have b : w0s * θ ^ xs * pv ≤ 0.0278 * 510 := mul_le_mul (by linarith) hpv' hpv.le (by norm_num)
    show w0 * θ ^ x * pd + w0s * θ ^ xs * pv ≤ 21
    linarith
  · have a := mul_le_mul_of_nonneg_right lo1 hpd
    have b := mul_le_mul_of_nonneg_right lo2 hpv.le
    show 0.0396 * (w0 * θ ^ x * pd + w0s * θ ^ xs * pv) ≤ v * θ ^ e1 * pd + vs * θ ^ e2 * pv
    linarith
  · have a := mul_le_mul_of_nonneg_right up1 hpd
    have b := mul_le_mul_of_nonneg_right up2 hpv.le
    show v * θ ^ e1 * pd + vs * θ ^ e2 * pv ≤ 0.181 * (w0 * θ ^ x * pd + w0s * θ ^ xs * pv)
    linarith
  · refine (abs_add_le _ _).trans ?_
    rw [abs_mul, abs_mul, abs_of_nonneg hpd, abs_of_pos hpv]
    have a := mul_le_mul_of_nonneg_right (show |da| ≤ 0.0131 * (w0 * θ ^ x) by linarith) hpd
    have b := mul_le_mul_of_nonneg_right (show |ds| ≤ 0.0131 * (w0s * θ ^ xs) by linarith) hpv.le
    show _ ≤ 0.0131 * (w0 * θ ^ x * pd + w0s * θ ^ xs * pv)
    linarith

/-! ## The shipped line lists -/

/-- The speed-dependent models. -/
def speedWater : List String := ["R19SD", "R20SD", "R21SD", "R22SD", "R23SD", "R24", "MWL24"]

/-- Those with a temperature dependence of the speed dependence. -/
def speedNew : List String := ["R21SD", "R22SD", "R23SD", "R24", "MWL24"]

/-- The test of one line with speed dependence, with the temperature exponents and the shifts. -/
def speedTest (g : String → ℚ) (e1 e2 da ds : ℚ) : Bool :=
  decide (0 < g "w0" ∧ g "w0" ≤ 31 / 10000 ∧ 0 < g "w0s" ∧ g "w0s" ≤ 151 / 10000 ∧ 0 ≤ e1 ∧ e1 ≤ g "x" ∧ g "x" ≤ 1 ∧
    0 ≤ e2 ∧ e2 ≤ g "xs" ∧ g "xs" ≤ 3 / 2 ∧ 297 / 5000 * g "w0" ≤ g "w2" ∧ g "w2" ≤ 1592 / 10000 * g "w0" ∧
    729 / 10000 * g "w0s" ≤ g "w2s" ∧ g "w2s" ≤ 1484 / 10000 * g "w0s" ∧ size da ≤ 115 / 10000 * g "w0" ∧
    size ds ≤ 1074 / 100000 * g "w0s")

/-- The test of line `k` of a list. -/
def speedLineTest (m : String) (T : RawTable) (k : ℕ) : Bool :=
  let g := lineEntry m T k
  decide (g "w2" = 0 ∧ g "w2s" = 0) ||
  (if m = "R19SD" then speedTest g 0 0 0 0
  else if m = "R20SD" then
    if k = 1 then speedTest g 0 0 (lineEntry m T 0 "d2air") (lineEntry m T 0 "d2self") else speedTest g 0 0 0 0
  else speedTest g (g "xw2") (g "xw2s") (g "d2") (g "d2s"))

/-- The attributes that the test reads. -/
def speedReads (m : String) : List String :=
  ["w0", "x", "w0s", "xs", "reftline", "s1", "fl", "w2", "w2s"] ++ (if m = "R20SD" then ["d2air", "d2self"] else []) ++
  (if m ∈ speedNew then ["xw2", "xw2s", "d2", "d2s"] else [])

def speedTable (m : String) (T : RawTable) : Bool :=
  (speedReads m).all (fun a => (ratAttr (waterAssign m) T a).isSome) &&
  ((List.range T.rows).all fun k => speedLineTest m T k) &&
  decide (296 ≤ lineEntry m T 0 "reftline" ∧ lineEntry m T 0 "reftline" ≤ 300)

set_option maxRecDepth 10000 in
theorem waterGroups_speed : ∀ g ∈ waterGroups, g.1 ∈ ["R19SD", "R20SD", "R21SD", "R22SD", "R23SD", "R24", "MWL24"] →
    speedTable g.1 g.2 = true := by decide +kernel

theorem cast_le_real {a b : ℚ} (h : a ≤ b) : (a : ℝ) ≤ (b : ℝ) := by exact_mod_cast h

/-- One line that passes the test. -/
theorem resonances_of_test {m : String} {g : String → ℚ} {c : String → ℕ → ℝ} {θ pd pv : ℝ} {i : ℕ} (t1 : 0.88 ≤ θ)
    (t2 : θ ≤ 1.5) (hpd : 0 ≤ pd) (hpd' : pd ≤ 1200) (hpv : 0 < pv) (hpv' : pv ≤ 510) (f : ℝ) (ew : c "w0" i = g "w0")
    (ex : c "x" i = g "x") (ews : c "w0s" i = g "w0s") (exs : c "xs" i = g "xs") (ev : c "w2" i = g "w2")
    (evs : c "w2s" i = g "w2s") {e1 e2 da ds : ℚ} (h : speedTest g e1 e2 da ds = true)
    (hw2 : speedWidth m c θ pd pv i = c "w2" i * θ ^ (e1 : ℝ) * pd + c "w2s" i * θ ^ (e2 : ℝ) * pv)
    (hd2 : speedShift m c pd pv i = da * pd + ds * pv) : 0 ≤ resonances m c θ pd pv f i := by
  unfold speedTest at h
  rw [decide_eq_true_eq] at h
  obtain ⟨k1, k2, k3, k4, k5, k6, k7, k8, k9, k10, k11, k12, k13, k14, k15, k16⟩ := h
  have S := speed_line (w0 := c "w0" i) (w0s := c "w0s" i) (x := c "x" i) (xs := c "xs" i) (e1 := e1) (e2 := e2)
    (v := c "w2" i) (vs := c "w2s" i) (da := da) (ds := ds) t1 t2 hpd hpv hpd' hpv'
    (by rw [ew]; exact_mod_cast k1) (by rw [ew]; have := cast_le_real k2; push_cast at this; exact this)
    (by rw [ews]; exact_mod_cast k3) (by rw [ews]; have := cast_le_real k4; push_cast at this; exact this)
    (by exact_mod_cast k5) (by rw [ex]; exact_mod_cast k6) (by rw [ex]; exact_mod_cast k7)
    (by exact_mod_cast k8) (by rw [exs]; exact_mod_cast k9)
    (by rw [exs]; have := cast_le_real k10; push_cast at this; exact this)
    (by rw [ew, ev]; have := cast_le_real k11; push_cast at this; exact this)
    (by rw [ew, ev]; have := cast_le_real k12; push_cast at this; exact this)
    (by rw [ews, evs]; have := cast_le_real k13; push_cast at this; exact this)
    (by rw [ews, evs]; have := cast_le_real k14; push_cast at this; exact this)
    (by rw [ew, ← size_abs]; have := cast_le_real k15; push_cast at this; exact this)
    (by rw [ews, ← size_abs]; have := cast_le_real k16; push_cast at this; exact this)
  obtain ⟨s1, s2, s3, s4, s5⟩ := S
  rw [← hw2] at s3 s4
  rw [← hd2] at s5
  unfold resonances
  simp only
  refine add_nonneg ?_ (localProfile_nonneg _ _)
  split_ifs with hb
  · exact sub_nonneg.2 (speedProfile_cut s1 s2 s3 s4 s5 hb.2.le).le
  · exact localProfile_nonneg _ _

theorem resonances_still {m : String} {c : String → ℕ → ℝ} {θ pd pv : ℝ} (f : ℝ) {i : ℕ}
    (h : ¬ 0 < speedWidth m c θ pd pv i) : 0 ≤ resonances m c θ pd pv f i := by
  unfold resonances
  simp only
  rw [if_neg (fun hb => h hb.1)]
  exact add_nonneg (localProfile_nonneg _ _) (localProfile_nonneg _ _)

/-- Every line of the shipped speed-dependent lists contributes nothing negative. -/
theorem resonances_nonneg {m : String} (hm : m ∈ speedWater) {F : LineList} (hF : waterFile m = some F)
    {c : String → ℕ → ℝ} {n : ℕ} (hc : ∀ a v, F a = some v → c a = v) (hn : F "len(fl)" = some fun _ => (n : ℝ)) {T pd pv : ℝ}
    (hT : 200 ≤ T) (hT' : T ≤ 330) (hpd : 0 ≤ pd) (hpd' : pd ≤ 1200) (hpv : 0 < pv) (hpv' : pv ≤ 510) (f : ℝ) {i : ℕ}
    (hi : i < n) : 0 ≤ resonances m c (c "reftline" 0 / T) pd pv f i := by
  unfold waterFile at hF
  cases hl : waterGroups.lookup m with
  | none => simp [hl] at hF
  | some R =>
    rw [hl, Option.map_some, Option.some_inj] at hF
    have hmem : (m, R) ∈ waterGroups := by
      obtain ⟨l₁, l₂, h, -⟩ := List.lookup_eq_some_iff.1 hl
      simp [h]
    have hrow : n = R.rows := by
      rw [← hF] at hn
      simp only [waterGroups_len, Option.bind_some, Src.val, Option.some.injEq] at hn
      have := congrFun hn 0
      exact_mod_cast this.symm
    have hg := waterGroups_speed _ hmem hm
    unfold speedTable at hg
    rw [Bool.and_eq_true, Bool.and_eq_true, List.all_eq_true, List.all_eq_true, decide_eq_true_eq] at hg
    obtain ⟨⟨hg1, hg2⟩, hg3, hg4⟩ := hg
    have hline := hg2 i (List.mem_range.2 (hrow ▸ hi))
    have cv : ∀ a ∈ speedReads m, ∀ k, c a k = (lineEntry m R k a : ℝ) := fun a ha k => by
      obtain ⟨r, hr⟩ := Option.isSome_iff_exists.1 (hg1 a ha)
      have := hc a _ (by rw [← hF]; exact ratAttr_val hr)
      rw [this]
      unfold lineEntry
      simp only at hr
      rw [hr]
      rfl
    have hT0 : 0 < T := by linarith
    have er := cv "reftline" (by simp [speedReads]) 0
    have q11 : (296 : ℝ) ≤ c "reftline" 0 := by rw [er]; exact_mod_cast hg3
    have q12 : c "reftline" 0 ≤ 300 := by rw [er]; exact_mod_cast hg4
    have t1 : 0.88 ≤ c "reftline" 0 / T := by rw [le_div_iff₀ hT0]; linarith
    have t2 : c "reftline" 0 / T ≤ 1.5 := by rw [div_le_iff₀ hT0]; linarith
    generalize c "reftline" 0 / T = θ at t1 t2 ⊢
    have ew := cv "w0" (by simp [speedReads]) i
    have ex := cv "x" (by simp [speedReads]) i
    have ews := cv "w0s" (by simp [speedReads]) i
    have exs := cv "xs" (by simp [speedReads]) i
    have ev := cv "w2" (by simp [speedReads]) i
    have evs := cv "w2s" (by simp [speedReads]) i
    have fin : ∀ e1 e2 da ds : ℚ, speedTest (lineEntry m R i) e1 e2 da ds = true →
        (speedWidth m c θ pd pv i = c "w2" i * θ ^ (e1 : ℝ) * pd + c "w2s" i * θ ^ (e2 : ℝ) * pv) →
        (speedShift m c pd pv i = da * pd + ds * pv) → 0 ≤ resonances m c θ pd pv f i := fun e1 e2 da ds =>
      resonances_of_test t1 t2 hpd hpd' hpv hpv' f ew ex ews exs ev evs
    unfold speedLineTest at hline
    simp only [Bool.or_eq_true, decide_eq_true_eq] at hline
    rcases hline with ⟨z1, z2⟩ | hline
    · refine resonances_still f ?_
      have y1 : c "w2" i = 0 := by rw [ev, z1]; simp
      have y2 : c "w2s" i = 0 := by rw [evs, z2]; simp
      unfold speedWidth
      rw [y1, y2]
      split_ifs <;> simp
    · by_cases h19 : m = "R19SD"
      · subst h19
        refine fin 0 0 0 0 (by simpa using hline) ?_ ?_
        · simp [speedWidth]
        · simp [speedShift]
      by_cases h20 : m = "R20SD"
      · subst h20
        rw [if_neg h19, if_pos rfl] at hline
        by_cases hi1 : i = 1
        · rw [if_pos hi1] at hline
          refine fin 0 0 _ _ hline ?_ ?_
          · simp [speedWidth]
          · unfold speedShift
            rw [if_pos rfl, if_pos hi1, cv "d2air" (by simp [speedReads]) 0, cv "d2self" (by simp [speedReads]) 0]
        · rw [if_neg hi1] at hline
          refine fin 0 0 0 0 hline ?_ ?_
          · simp [speedWidth]
          · simp [speedShift, hi1]
      · rw [if_neg h19, if_neg h20] at hline
        have hnew' : m = "R21SD" ∨ m = "R22SD" ∨ m = "R23SD" ∨ m = "R24" ∨ m = "MWL24" := by
          simp only [speedWater, List.mem_cons, List.not_mem_nil, or_false] at hm
          rcases hm with h | h | h
          · exact absurd h h19
          · exact absurd h h20
          · exact h
        have hnew : m ∈ speedNew := by simpa [speedNew] using hnew'
        have hold : ¬ (m = "R19SD" ∨ m = "R20SD") := by
          rintro (h | h)
          · exact h19 h
          · exact h20 h
        have r : ∀ a ∈ ["xw2", "xw2s", "d2", "d2s"], a ∈ speedReads m := fun a ha => by
          unfold speedReads
          rw [if_pos hnew]
          exact List.mem_append_right _ ha
        by_cases hpos : 0 < c "w2" i
        · refine fin _ _ _ _ hline ?_ ?_
          · unfold speedWidth
            rw [if_neg hold, if_pos hnew', if_pos hpos, cv "xw2" (r _ (by simp)) i, cv "xw2s" (r _ (by simp)) i]
          · unfold speedShift
            rw [if_neg h20, if_pos hnew', cv "d2" (r _ (by simp)) i, cv "d2s" (r _ (by simp)) i]
        · refine resonances_still f ?_
          unfold speedWidth
          rw [if_neg hold, if_pos hnew', if_neg hpos]
          exact lt_irrefl 0

end Verif.Lemmas
