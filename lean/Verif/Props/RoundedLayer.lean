import Verif.Lemmas.RoundInt
import Verif.Props.Rounding
import Verif.Props.OpacityError
import Mathlib.Analysis.Complex.ExponentialBounds

/-!
# C119: rounding errors from absorption to brightness temperature

`Model/RoundedInt.lean` is `exponential_integration` over an arbitrary arithmetic.  With real arithmetic it
is the function of the other properties.  In double precision the layer value is much less accurate than
the arithmetic: the code divides by a logarithm of a ratio close to one as soon as two neighbouring values
differ by more than `10⁻⁹`.
-/

namespace Verif.Props

open Verif.Model Verif.Py Verif.Spec Verif.Lemmas Real

variable {F : Arith} {u X : ℝ} {nl : ℕ}

/-- With real arithmetic a layer value is that of the other properties. -/
theorem exact_layerValue (z : Bool) (a b : ℝ) :
    Arith.exact.layerValue z a b = some (layerValue z a b) := by
  rw [Arith.layerValue_unf]
  unfold Arith.layerValue
  show (if a < 0 ∨ b < 0 then some none
    else if |b - a| < 1e-09 then some (some b)
    else if a = 0 ∨ b = 0 then
      if !z then some (some 0) else some (some ((b + a) * 0.5))
    else if Real.log (b / a) = 0 then none
    else some (some ((b - a) / Real.log (b / a)))) = _
  split_ifs with h1 h2 h3 h4 h5 <;> first | rfl | skip
  exfalso
  push Not at h1 h3
  have a0 : 0 < a := lt_of_le_of_ne h1.1 (Ne.symm h3.1)
  have b0 : 0 < b := lt_of_le_of_ne h1.2 (Ne.symm h3.2)
  have e := eq_one_of_pos_of_log_eq_zero (div_pos b0 a0) h5
  rw [div_eq_one_iff_eq a0.ne'] at e
  apply h2
  rw [e, sub_self, abs_zero]
  norm_num

/-- **C119.** With real arithmetic the integration is that of the other properties, for all arguments. -/
theorem C119_same_program (z : Bool) (x ds : ℕ → ℝ) (ibeg iend : ℕ) (factor : ℝ) :
    Arith.exact.expInt z nl x ds ibeg iend factor = some (expInt z nl x ds ibeg iend factor) := by
  have body : ∀ i s, Arith.exact.expIntBody z nl x ds i s
      = (expIntBody z nl x ds i s).mapError some := by
    intro i s
    unfold Arith.expIntBody expIntBody
    rw [exact_layerValue]
    split_ifs
    · rfl
    · cases layerValue z (prevEntry x nl i) (x i) <;> rfl
  have loop : ∀ hi s, forRangeE ibeg hi (Arith.exact.expIntBody z nl x ds) s
      = (forRangeE ibeg hi (expIntBody z nl x ds) s).mapError some := by
    intro hi s
    rcases Nat.lt_or_ge hi ibeg with h | h
    · rw [forRangeE_of_le h.le, forRangeE_of_le h.le]; rfl
    · induction hi, h using Nat.le_induction with
      | base => rw [forRangeE_of_le le_rfl, forRangeE_of_le le_rfl]; rfl
      | succ n hn ih =>
        rw [forRangeE_succ hn, forRangeE_succ hn, ih]
        cases forRangeE ibeg n (expIntBody z nl x ds) s with
        | error e => rfl
        | ok r => exact body n r
  unfold Arith.expInt expInt
  rw [loop, show (0.0 : ℝ) = 0 by norm_num]
  cases forRangeE ibeg iend (expIntBody z nl x ds) (0, fun _ => 0) with
  | error e => rfl
  | ok r => rfl

/-- **C119.** The value of one layer between two levels with values up to `X`: relative error
`4u + 1.3·10⁹ X u`, and at most `1.1·10⁻⁹` more when the difference of the two values lies so close to the
threshold `10⁻⁹` that the other branch may be taken. -/
theorem C119_layer (hF : F.Accurate u) (hu : 1e-30 ≤ u ∧ u ≤ 1e-15) (hs : X * u ≤ 1e-12)
    {z : Bool} {a b v : ℝ} (ha : a ≤ X) (hb : b ≤ X) (h : layerValue z a b = some v) :
    ∃ v', F.layerValue z a b = some (some v') ∧ 0 ≤ v' ∧
      |v' - v| ≤ (4 * u + 1.3e9 * (X * u)) * v + 1.1e-9 ∧
      (3e-9 * u < |(|b - a| - 1e-9)| → |v' - v| ≤ (4 * u + 1.3e9 * (X * u)) * v) :=
  Arith.layerValue_error hF hu ha hb hs h

/-- A negative value stops the rounded program as it stops the exact one. -/
theorem C119_negative (F : Arith) (z : Bool) {a b : ℝ} (h : a < 0 ∨ b < 0) :
    F.layerValue z a b = some none ∧ layerValue z a b = none :=
  ⟨by unfold Arith.layerValue; rw [if_pos h], layerValue_eq_none.2 h⟩

/-- Sum of differences of layer opacities. -/
theorem error_sum {y y' d : ℕ → ℝ} {κ e : ℝ} {n : ℕ}
    (h : ∀ i, 1 ≤ i → i ≤ n → |y' i - y i| ≤ κ * y i + e * d i) :
    opacityError n y y' ≤ κ * opacityBelow y n + e * opacityBelow d n := by
  unfold opacityError opacityBelow
  rw [Finset.mul_sum, Finset.mul_sum, ← Finset.sum_add_distrib]
  refine Finset.sum_le_sum fun i hi => ?_
  rw [Finset.mem_Icc] at hi
  exact h i hi.1 hi.2

theorem opacity_diff (y y' : ℕ → ℝ) (n : ℕ) :
    |opacityBelow y' n - opacityBelow y n| ≤ opacityError n y y' := by
  unfold opacityError opacityBelow
  rw [← Finset.sum_sub_distrib]
  exact Finset.abs_sum_le_sum_abs _ _

/-- **C119.** The integral of one constituent (`sptauwet` and the like): relative error
`1.31·10⁹ X u` plus three roundoff units per level, and `1.3·10⁻⁹` per unit of path. -/
theorem C119_integral (hF : F.Accurate u) (hu : 1e-30 ≤ u ∧ u ≤ 1e-15) (hs : X * u ≤ 1e-12)
    (hn : 0 < nl) (hnu : (nl : ℝ) * u ≤ 1e-4) {z : Bool} {x ds : ℕ → ℝ}
    (hx : ∀ i < nl, 0 ≤ x i ∧ x i ≤ X) (hd : ∀ i, 1 ≤ i → i < nl → 0 ≤ ds i) :
    ∃ S S' y y', expInt z nl x ds 1 nl 1 = .ok (S, y) ∧
      F.expInt z nl x ds 1 nl 1 = some (.ok (S', y')) ∧
      |S' - S| ≤ (1.32e9 * (X * u) + (3 * nl + 8) * u) * S + 1.3e-9 * opacityBelow ds (nl - 1) := by
  have u0 := Arith.Unit.nonneg hu
  have u1 := Arith.Unit.le hu
  obtain ⟨S', y', S, y, e1, e2, hS, hS', hy⟩ := Arith.expInt_rounded (z := z) hF hu hn hx hs hd
  refine ⟨S, S', y, y', e2, e1, ?_⟩
  have X0 : 0 ≤ X := (hx 0 hn).1.trans (hx 0 hn).2
  have Xu : 0 ≤ X * u := mul_nonneg X0 u0
  have n1 : ((nl - 1 : ℕ) : ℝ) ≤ nl := by exact_mod_cast Nat.sub_le nl 1
  have n0 : (0:ℝ) ≤ ((nl - 1 : ℕ) : ℝ) := Nat.cast_nonneg _
  have nu : ((nl - 1 : ℕ) : ℝ) * u ≤ nl * u := mul_le_mul_of_nonneg_right n1 u0
  have nu0 : 0 ≤ ((nl - 1 : ℕ) : ℝ) * u := mul_nonneg n0 u0
  set W := opacityBelow y' (nl - 1) with hW
  have W0 : 0 ≤ W := Finset.sum_nonneg fun i hi => by
    rw [Finset.mem_Icc] at hi; exact (hy i hi.1 (by omega)).2.1
  have S0 : 0 ≤ S := by
    rw [hS]
    exact Finset.sum_nonneg fun i hi => by rw [Finset.mem_Icc] at hi; exact (hy i hi.1 (by omega)).1
  have P0 : 0 ≤ opacityBelow ds (nl - 1) := Finset.sum_nonneg fun i hi => by
    rw [Finset.mem_Icc] at hi; exact hd i hi.1 (by omega)
  -- summation
  have acc := Arith.accP_near hF hu (τ := y') (n := nl - 1)
    (fun i h1 h2 => (hy i h1 (by omega)).2.1) (by norm_num at *; linarith) (nl - 1) le_rfl
  have mul := Arith.near_mul hF acc (Arith.near_refl 1) W0 zero_le_one
    (by positivity) le_rfl (by norm_num at *; linarith) zero_le_one u0 (Arith.Unit.one hu)
  rw [mul_one, add_zero, mul_zero, add_zero, ← hS'] at mul
  have a1 := mul.abs
  rw [← hW] at a1
  -- integration
  have sum := error_sum (n := nl - 1) (e := 1.2e-9) (d := ds) (κ := Arith.constRel X u)
    (fun i h1 h2 => (hy i h1 (by omega)).2.2.1)
  have a2 := (opacity_diff y y' (nl - 1)).trans sum
  rw [← hS, ← hW] at a2
  set P := opacityBelow ds (nl - 1)
  set n := ((nl - 1 : ℕ) : ℝ)
  have κ0 : 0 ≤ Arith.constRel X u := by unfold Arith.constRel; positivity
  have κ1 : Arith.constRel X u ≤ 1.4e-3 := by unfold Arith.constRel; norm_num at *; linarith
  have WS : W ≤ 1.0014 * S + 1.2e-9 * P := by
    have := mul_le_mul_of_nonneg_right κ1 S0
    linarith [(abs_le.1 a2).2]
  set δ := u + 2 * n * u + u * (2 * n * u) with hδ
  have nn : n * u ≤ 1e-4 := by linarith
  have unu : u * (2 * n * u) ≤ u * 2e-4 := mul_le_mul_of_nonneg_left (by linarith) u0
  have δ0 : 0 ≤ δ := by positivity
  have δ1 : δ ≤ 2.1e-4 := by rw [hδ]; norm_num at *; linarith
  have δ2 : δ ≤ 1.001 * u + 2 * (nl * u) := by rw [hδ]; norm_num at *; linarith
  have b1 : δ * W ≤ δ * (1.0014 * S + 1.2e-9 * P) := mul_le_mul_of_nonneg_left WS δ0
  have b2 : δ * S ≤ (1.001 * u + 2 * (nl * u)) * S := mul_le_mul_of_nonneg_right δ2 S0
  have b3 : δ * P ≤ 2.1e-4 * P := mul_le_mul_of_nonneg_right δ1 P0
  have b4 : 0 ≤ u * S := mul_nonneg u0 S0
  have b5 : 0 ≤ (nl : ℝ) * u * S := mul_nonneg (mul_nonneg (Nat.cast_nonneg _) u0) S0
  have b6 : 0 ≤ X * u * S := mul_nonneg Xu S0
  have tri : |S' - S| ≤ |S' - W| + |W - S| := abs_sub_le _ _ _
  refine tri.trans ((add_le_add a1 a2).trans ?_)
  unfold Arith.constRel
  norm_num at *
  linarith

/-- Profiles between zero and `X`. -/
def Bounded (nl : ℕ) (a : Arith.Profiles) (X : ℝ) : Prop :=
  ∀ i < nl, (0 ≤ a.wet i ∧ a.wet i ≤ X) ∧ (0 ≤ a.dry i ∧ a.dry i ≤ X) ∧
    (0 ≤ a.ice i ∧ a.ice i ≤ X) ∧ (0 ≤ a.liq i ∧ a.liq i ≤ X)

/-- The steps of a profile keep clear of the threshold `10⁻⁹` of the layer integration. -/
def Clear (nl : ℕ) (x : ℕ → ℝ) (u : ℝ) : Prop :=
  ∀ i, 1 ≤ i → i < nl → 3e-9 * u < |(|x i - x (i - 1)| - 1e-9)|

/-- **C119.** The layer opacities handed to the radiance code. -/
theorem C119_opacities (hF : F.Accurate u) (hu : 1e-30 ≤ u ∧ u ≤ 1e-15) (hs : X * u ≤ 1e-12)
    (hn : 0 < nl) {a : Arith.Profiles} {ds : ℕ → ℝ} (ha : Bounded nl a X)
    (hd : ∀ i, 1 ≤ i → i < nl → 0 ≤ ds i) :
    ∃ τ τ', Arith.exact.opacities nl a ds = some τ ∧ F.opacities nl a ds = some τ' ∧
      ∀ i, 1 ≤ i → i < nl → 0 ≤ τ i ∧ 0 ≤ τ' i ∧
        |τ' i - τ i| ≤ (10 * u + 1.31e9 * (X * u)) * τ i + 4.9e-9 * ds i ∧
        (Clear nl a.wet u → Clear nl a.dry u → Clear nl a.ice u → Clear nl a.liq u →
          |τ' i - τ i| ≤ (10 * u + 1.31e9 * (X * u)) * τ i) := by
  have X0 : 0 ≤ X := (ha 0 hn).1.1.trans (ha 0 hn).1.2
  obtain ⟨_, w', _, w, w1, w2, -, -, hw⟩ :=
    Arith.expInt_rounded (z := true) hF hu hn (fun i hi => (ha i hi).1) hs hd
  obtain ⟨_, d', _, d, d1, d2, -, -, hdr⟩ :=
    Arith.expInt_rounded (z := true) hF hu hn (fun i hi => (ha i hi).2.1) hs hd
  obtain ⟨_, c', _, c, c1, c2, -, -, hc⟩ :=
    Arith.expInt_rounded (z := false) hF hu hn (fun i hi => (ha i hi).2.2.1) hs hd
  obtain ⟨_, l', _, l, l1, l2, -, -, hl⟩ :=
    Arith.expInt_rounded (z := false) hF hu hn (fun i hi => (ha i hi).2.2.2) hs hd
  refine ⟨fun k => w k + d k + c k + l k, fun k => F.add (F.add (F.add (w' k) (d' k)) (c' k)) (l' k),
    ?_, ?_, ?_⟩
  · unfold Arith.opacities
    rw [C119_same_program, C119_same_program, C119_same_program, C119_same_program, w2, d2, c2, l2]
    rfl
  · unfold Arith.opacities
    rw [w1, d1, c1, l1]
  · intro i h1 h2
    obtain ⟨a1, a2, a3, a4⟩ := hw i h1 h2
    obtain ⟨b1, b2, b3, b4⟩ := hdr i h1 h2
    obtain ⟨e1, e2, e3, e4⟩ := hc i h1 h2
    obtain ⟨f1, f2, f3, f4⟩ := hl i h1 h2
    have dd := hd i h1 h2
    have s := Arith.sum_parts hF hu X0 hs (e := 1.2e-9 * ds i) (by positivity) ⟨a1, b1, e1, f1⟩
      ⟨a2, b2, e2, f2⟩ a3 b3 e3 f3
    refine ⟨by positivity, s.1, s.2.trans ?_, fun k1 k2 k3 k4 => ?_⟩
    · unfold Arith.opRel
      norm_num; linarith
    · have s2 := Arith.sum_parts hF hu X0 hs (e := 0) le_rfl ⟨a1, b1, e1, f1⟩ ⟨a2, b2, e2, f2⟩
        (by simpa using a4 (k1 i h1 h2)) (by simpa using b4 (k2 i h1 h2))
        (by simpa using e4 (k3 i h1 h2)) (by simpa using f4 (k4 i h1 h2))
      have := s2.2
      rw [mul_zero, add_zero] at this
      exact this

theorem planckW_one_bound {x : ℝ} (h0 : 0 < x) (h : x ≤ 1) : 0.9 ≤ planckW x := by
  refine le_trans ?_ (planckW_anti h0 h)
  unfold planckW
  have e1 := Real.exp_one_gt_d9
  have e2 := Real.exp_one_lt_d9
  rw [le_div_iff₀ (by nlinarith)]
  nlinarith

/-- **C119.** Double precision, from the absorption profiles to the brightness temperature of a satellite
over a black surface: what the layer integration adds to the error of C118. -/
theorem C119_satellite (hF : F.Accurate (2 ^ (-52 : ℤ))) {frq m M : ℝ} {t ds : ℕ → ℝ}
    {a : Arith.Profiles} (h1 : 1 ≤ frq) (h2 : frq ≤ 1000) (hn : 0 < nl) (hn1 : nl ≤ 1001)
    (hm : hvkOf frq ≤ m) (hm1 : 2.7 ≤ m) (hM : M ≤ 350) (hT : ∀ i < nl, m ≤ t i ∧ t i ≤ M)
    (ha : Bounded nl a X) (hX : X ≤ 4000) (hd : ∀ i, 1 ≤ i → i < nl → 0 ≤ ds i)
    (hp : opacityBelow ds (nl - 1) ≤ 1e6) {τ : ℕ → ℝ} (hτ : Arith.exact.opacities nl a ds = some τ)
    (hop : opacityBelow τ (nl - 1) ≤ 124) :
    ∃ T T', Arith.exact.tbProfile true 1 frq nl t a ds = some T ∧
      F.tbProfile true 1 frq nl t a ds = some T' ∧
      |T' - T| ≤ 5e-7 + (M - m) / 0.9 *
        ((2.3e-15 + 3e-7 * X) * opacityBelow τ (nl - 1) + 4.9e-9 * opacityBelow ds (nl - 1)) := by
  have X0 : 0 ≤ X := (ha 0 hn).1.1.trans (ha 0 hn).1.2
  have hf : 0 < frq := by linarith
  have hh := hvkOf_pos hf
  have m0 : 0 < m := by linarith
  have uX : X * (2:ℝ) ^ (-52 : ℤ) ≤ 1e-12 := by norm_num; linarith
  obtain ⟨τ₀, τ', q1, q2, q3⟩ := C119_opacities hF (by norm_num) uX hn ha hd
  rw [hτ] at q1
  cases q1
  have err := error_sum (n := nl - 1) (e := 4.9e-9) (d := ds) (fun i k1 k2 => (q3 i k1 (by omega)).2.2.1)
  have τ0 : 0 ≤ opacityBelow τ (nl - 1) := Finset.sum_nonneg fun i hi => by
    rw [Finset.mem_Icc] at hi; exact (q3 i hi.1 (by omega)).1
  have P0 : 0 ≤ opacityBelow ds (nl - 1) := Finset.sum_nonneg fun i hi => by
    rw [Finset.mem_Icc] at hi; exact hd i hi.1 (by omega)
  have dif := (opacity_diff τ τ' (nl - 1)).trans err
  set κ := 10 * (2:ℝ) ^ (-52 : ℤ) + 1.31e9 * (X * (2:ℝ) ^ (-52 : ℤ)) with hκ
  have κ1 : κ ≤ 2.3e-15 + 3e-7 * X := by rw [hκ]; norm_num; linarith
  have κ2 : κ ≤ 1.3e-3 := by rw [hκ]; norm_num; linarith
  have hop' : opacityBelow τ' (nl - 1) < 125 := by
    have k1 := mul_le_mul_of_nonneg_right κ2 τ0
    have := (abs_le.1 dif).2
    norm_num at *
    linarith
  have pos : ∀ i, 0 < i → i < nl → 0 ≤ τ i ∧ 0 ≤ τ' i := fun i k1 k2 =>
    ⟨(q3 i k1 k2).1, (q3 i k1 k2).2.1⟩
  obtain ⟨out, ho⟩ := planck_exists (s := true) (es := 1) (frq := frq) (t := t) (τ := τ) hn.ne'
  obtain ⟨out', ho'⟩ := planck_exists (s := true) (es := 1) (frq := frq) (t := t) (τ := τ') hn.ne'
  obtain ⟨Tb, Tb', r1, r2, r3⟩ := C92_satellite_brightness hf m0 hT pos (by linarith) hop' ho ho'
  obtain ⟨Tc, s1, s2, -⟩ := C03_upwelling_between hf m0 hT (fun i k1 k2 => (pos i k1 k2).2) hop' ho'
  rw [r2] at s1
  cases s1
  have ex : Arith.exact.tbtotal true 1 frq nl t τ' = some Tb' := by
    rw [C118_same_program, ho']; exact r2
  obtain ⟨T', g1, g2⟩ := (C118_kelvin hF h1 h2 ⟨zero_le_one, le_rfl⟩ hn
    (fun i hi => ⟨hm1.trans (hT i hi).1, (hT i hi).2.trans hM⟩) (fun i k1 k2 => (pos i k1 k2).2) ex
    (hm.trans s2)).2 hn1
  refine ⟨Tb, T', ?_, ?_, ?_⟩
  · unfold Arith.tbProfile
    rw [hτ]
    show Arith.exact.tbtotal true 1 frq nl t τ = some Tb
    rw [C118_same_program, ho]; exact r1
  · unfold Arith.tbProfile
    rw [q2]; exact g1
  · have mM : m ≤ M := (hT 0 hn).1.trans (hT 0 hn).2
    rw [planck_hvk ho] at r3
    have w := planckW_one_bound (div_pos hh m0) ((div_le_one m0).2 hm)
    have E0 : 0 ≤ opacityError (nl - 1) τ τ' := Finset.sum_nonneg fun i _ => abs_nonneg _
    have E1 : opacityError (nl - 1) τ τ' ≤ (2.3e-15 + 3e-7 * X) * opacityBelow τ (nl - 1)
        + 4.9e-9 * opacityBelow ds (nl - 1) :=
      err.trans (by have := mul_le_mul_of_nonneg_right κ1 τ0; linarith)
    have r4 : |Tb' - Tb| ≤ (M - m) / 0.9 * opacityError (nl - 1) τ τ' := by
      refine r3.trans ?_
      rw [div_mul_eq_mul_div]
      exact div_le_div_of_nonneg_left (mul_nonneg (by linarith) E0) (by norm_num) w
    have r5 := r4.trans (mul_le_mul_of_nonneg_left E1 (div_nonneg (by linarith) (by norm_num)))
    have tri : |T' - Tb| ≤ |T' - Tb'| + |Tb' - Tb| := abs_sub_le _ _ _
    linarith

/-- `B(T) ≤ kT/hν`. -/
theorem tk2b_le_linear {h T : ℝ} (hh : 0 < h) (hT : 0 < T) : tk2b h T ≤ T / h := by
  have x0 : 0 < h / T := by positivity
  have e := add_one_le_exp (h / T)
  unfold tk2b
  rw [div_le_div_iff₀ (by norm_num; exact x0) hh]
  have k : h = h / T * T := by field_simp
  have : h / T * T ≤ (exp (h / T) - 1) * T := mul_le_mul_of_nonneg_right (by linarith) hT.le
  norm_num
  linarith

/-- Brightness temperature in double precision from layer opacities that differ from the exact ones by `E` in all. -/
theorem tb_perturbed (hF : F.Accurate (2 ^ (-52 : ℤ))) {frq es M E T : ℝ} {t τ τ' : ℕ → ℝ} {s : Bool}
    (h1 : 1 ≤ frq) (h2 : frq ≤ 1000) (hes : 0 ≤ es ∧ es ≤ 1) (hn : 0 < nl)
    (hn1 : nl ≤ 1001) (hM : M ≤ 350) (hT : ∀ i < nl, 2.728 ≤ t i ∧ t i ≤ M)
    (pos : ∀ i, 0 < i → i < nl → 0 ≤ τ i ∧ 0 ≤ τ' i) (hop : opacityBelow τ (nl - 1) ≤ 124)
    (hop' : opacityBelow τ' (nl - 1) < 125) (E1 : opacityError (nl - 1) τ τ' ≤ E)
    (hTb : Arith.exact.tbtotal s es frq nl t τ = some T) (hlow : hvkOf frq + M / 0.9 * E ≤ T) :
    ∃ T', F.tbtotal s es frq nl t τ' = some T' ∧ |T' - T| ≤ 5e-7 + M / 0.9 * E := by
  have hf : 0 < frq := by linarith
  have hh := hvkOf_pos hf
  have M0 : 2.728 ≤ M := (hT 0 hn).1.trans (hT 0 hn).2
  have M1 : 0 < M := lt_of_lt_of_le (by norm_num) M0
  have E0 : 0 ≤ opacityError (nl - 1) τ τ' := Finset.sum_nonneg fun i _ => abs_nonneg _
  obtain ⟨out, ho⟩ := planck_exists (s := s) (es := es) (frq := frq) (t := t) (τ := τ) hn.ne'
  obtain ⟨out', ho'⟩ := planck_exists (s := s) (es := es) (frq := frq) (t := t) (τ := τ') hn.ne'
  -- radiances
  have hl : (0 : ℝ) < 2.728 := by norm_num
  have BM := tk2b_pos hh M1
  have Bl := tk2b_pos hh hl
  have rad : |out'.boftotl - out.boftotl| ≤ tk2b (hvkOf frq) M * E := by
    have hop1 : opacityBelow τ (nl - 1) < 125 := by linarith
    cases s with
    | false =>
      have := C92_ground hf hT pos hop1 hop' ho ho'
      rw [planck_hvk ho] at this
      refine this.trans (mul_le_mul (by linarith) E1 E0 BM.le)
    | true =>
      have := C92_satellite hf hes hl hT pos hop1 hop' ho ho'
      rw [planck_hvk ho] at this
      have k := mul_nonneg hes.1 Bl.le
      refine this.trans (mul_le_mul (by linarith) E1 E0 BM.le)
  have E2 : 0 ≤ E := E0.trans E1
  have rad' : |out'.boftotl - out.boftotl| ≤ M / hvkOf frq * E :=
    rad.trans (mul_le_mul_of_nonneg_right (tk2b_le_linear hh M1) E2)
  -- the exact temperature
  have hb : bright out.hvk out.boftotl = some T := by
    have hTb' : Arith.exact.tbtotal s es frq nl t τ = some T := hTb
    rw [C118_same_program, ho] at hTb'
    exact hTb'
  rw [planck_hvk ho] at hb
  set H := hvkOf frq with hH
  have ME : 0 ≤ M / 0.9 * E := mul_nonneg (div_nonneg M1.le (by norm_num)) E2
  have T0 : H ≤ T := by linarith
  have w : 0.9 ≤ planckW (H / H) := planckW_one_bound (by positivity) (by rw [div_self hh.ne'])
  have out0 : 0 < out.boftotl := by
    have c : Conditioned frq es nl t τ 350 7400 :=
      { freq := hf
        levels := hn
        temp := fun i hi => ⟨hl.trans_le (hT i hi).1, (hT i hi).2.trans hM⟩
        opac := fun i k1 k2 => (pos i k1 k2).1
        emis := hes
        cosmic := by norm_num
        atLevels := fun i hi => cond_range h1 h2 (le_trans (by norm_num) (hT i hi).1) ((hT i hi).2.trans hM)
        atCosmic := cond_range h1 h2 (by norm_num) (by norm_num)
        atMax := cond_range h1 h2 (by norm_num) le_rfl }
    have n1 : ((nl - 1 : ℕ) : ℝ) ≤ 1000 := by exact_mod_cast (by omega : nl - 1 ≤ 1000)
    have n0 : (0:ℝ) ≤ ((nl - 1 : ℕ) : ℝ) := Nat.cast_nonneg _
    have L : layerLoss (nl - 1) ≤ 2011025 := by unfold layerLoss; nlinarith
    obtain ⟨_, -, g, -⟩ := C118_radiance hF (by norm_num) c (by norm_num; linarith) ho
    rcases g.eq_or_lt with g0 | g0
    · rw [← g0] at hb
      unfold bright at hb
      rw [if_neg (by norm_num)] at hb
      have := Option.some.inj hb
      linarith
    · exact g0
  have eB : out.boftotl = tk2b H T := by
    obtain ⟨T1, hT1, e⟩ := exists_tk2b hh out0
    rw [← e, bright_tk2b hh hT1] at hb
    cases hb
    exact e.symm
  have slope := (tk2b_slope hh hh T0 hh le_rfl).1
  have gap : M / H * E ≤ tk2b H T - tk2b H H := by
    refine le_trans ?_ slope
    have k1 : M * E ≤ 0.9 * (T - H) := by
      have : M / 0.9 * E ≤ T - H := by linarith
      have e : M / 0.9 * E = M * E / 0.9 := by ring
      rw [e, div_le_iff₀ (by norm_num)] at this
      linarith
    have k2 : 0.9 * (T - H) ≤ planckW (H / H) * (T - H) := mul_le_mul_of_nonneg_right w (by linarith)
    rw [div_mul_eq_mul_div, div_mul_eq_mul_div]
    exact div_le_div_of_nonneg_right (k1.trans k2) hh.le
  have low : tk2b H H ≤ out.boftotl := by
    rw [eB]
    have : 0 ≤ M / H * E := mul_nonneg (div_nonneg M1.le hh.le) E2
    linarith
  have low' : tk2b H H ≤ out'.boftotl := by
    have := (abs_le.1 rad').1
    rw [eB] at this
    linarith
  obtain ⟨Tb, Tb', r1, r2, r3⟩ := radiance_error hh hh low low' rad'
  rw [hb] at r1
  cases r1
  have r4 : |Tb' - T| ≤ M / 0.9 * E := by
    refine r3.trans ?_
    have e : H * (M / H * E) = M * E := by field_simp
    rw [e, show M / 0.9 * E = M * E / 0.9 by ring]
    exact div_le_div_of_nonneg_left (mul_nonneg M1.le E2) (by norm_num) w
  have Tlow : H ≤ Tb' := by linarith [(abs_le.1 r4).1]
  have ex : Arith.exact.tbtotal s es frq nl t τ' = some Tb' := by
    rw [C118_same_program, ho']
    show bright out'.hvk out'.boftotl = some Tb'
    rw [planck_hvk ho']; exact r2
  obtain ⟨T', g1, g2⟩ := (C118_kelvin hF h1 h2 hes hn
    (fun i hi => ⟨le_trans (by norm_num) (hT i hi).1, (hT i hi).2.trans hM⟩)
    (fun i k1 k2 => (pos i k1 k2).2) ex Tlow).2 hn1
  refine ⟨T', g1, ?_⟩
  have tri : |T' - T| ≤ |T' - Tb'| + |Tb' - T| := abs_sub_le _ _ _
  linarith

/-- **C119.** Both viewing directions, any emissivity: the same with the whole temperature in place of the
temperature range, for brightness temperatures that exceed `hν/k` by the error. -/
theorem C119_any (hF : F.Accurate (2 ^ (-52 : ℤ))) {frq es M : ℝ} {t ds : ℕ → ℝ} {s : Bool}
    {a : Arith.Profiles} (h1 : 1 ≤ frq) (h2 : frq ≤ 1000) (hes : 0 ≤ es ∧ es ≤ 1) (hn : 0 < nl)
    (hn1 : nl ≤ 1001) (hM : M ≤ 350) (hT : ∀ i < nl, 2.728 ≤ t i ∧ t i ≤ M)
    (ha : Bounded nl a X) (hX : X ≤ 4000) (hd : ∀ i, 1 ≤ i → i < nl → 0 ≤ ds i)
    (hp : opacityBelow ds (nl - 1) ≤ 1e6) {τ : ℕ → ℝ} (hτ : Arith.exact.opacities nl a ds = some τ)
    (hop : opacityBelow τ (nl - 1) ≤ 124) {E : ℝ}
    (hE : E = (2.3e-15 + 3e-7 * X) * opacityBelow τ (nl - 1) + 4.9e-9 * opacityBelow ds (nl - 1))
    {T : ℝ} (hTb : Arith.exact.tbProfile s es frq nl t a ds = some T)
    (hlow : hvkOf frq + M / 0.9 * E ≤ T) :
    ∃ T', F.tbProfile s es frq nl t a ds = some T' ∧ |T' - T| ≤ 5e-7 + M / 0.9 * E := by
  have X0 : 0 ≤ X := (ha 0 hn).1.1.trans (ha 0 hn).1.2
  have uX : X * (2:ℝ) ^ (-52 : ℤ) ≤ 1e-12 := by norm_num; linarith
  obtain ⟨τ₀, τ', q1, q2, q3⟩ := C119_opacities hF (by norm_num) uX hn ha hd
  rw [hτ] at q1
  cases q1
  have err := error_sum (n := nl - 1) (e := 4.9e-9) (d := ds) (fun i k1 k2 => (q3 i k1 (by omega)).2.2.1)
  have τ0 : 0 ≤ opacityBelow τ (nl - 1) := Finset.sum_nonneg fun i hi => by
    rw [Finset.mem_Icc] at hi; exact (q3 i hi.1 (by omega)).1
  have P0 : 0 ≤ opacityBelow ds (nl - 1) := Finset.sum_nonneg fun i hi => by
    rw [Finset.mem_Icc] at hi; exact hd i hi.1 (by omega)
  have dif := (opacity_diff τ τ' (nl - 1)).trans err
  set κ := 10 * (2:ℝ) ^ (-52 : ℤ) + 1.31e9 * (X * (2:ℝ) ^ (-52 : ℤ)) with hκ
  have κ1 : κ ≤ 2.3e-15 + 3e-7 * X := by rw [hκ]; norm_num; linarith
  have κ2 : κ ≤ 1.3e-3 := by rw [hκ]; norm_num; linarith
  have hop' : opacityBelow τ' (nl - 1) < 125 := by
    have k1 := mul_le_mul_of_nonneg_right κ2 τ0
    have := (abs_le.1 dif).2
    norm_num at *
    linarith
  have E1 : opacityError (nl - 1) τ τ' ≤ E := by
    rw [hE]
    exact err.trans (by have := mul_le_mul_of_nonneg_right κ1 τ0; linarith)
  have pos : ∀ i, 0 < i → i < nl → 0 ≤ τ i ∧ 0 ≤ τ' i := fun i k1 k2 =>
    ⟨(q3 i k1 k2).1, (q3 i k1 k2).2.1⟩
  unfold Arith.tbProfile at hTb ⊢
  rw [hτ] at hTb
  rw [q2]
  exact tb_perturbed hF h1 h2 hes hn hn1 hM hT pos hop hop' E1 hTb hlow

/-- An arithmetic whose quotients alone are off, by one unit in the last place. -/
noncomputable def quotientsHigh : Arith :=
  { Arith.exact with div := fun a b => a / b * (1 + 2 ^ (-52 : ℤ)) }

theorem quotientsHigh_accurate : quotientsHigh.Accurate (2 ^ (-52 : ℤ)) := by
  have z : ∀ x : ℝ, |x - x| ≤ 2 ^ (-52 : ℤ) * |x| := fun x => by
    rw [sub_self, abs_zero]; positivity
  refine ⟨fun a b => z _, fun a b => z _, fun a b => z _, fun a b _ => ?_, fun a => ?_,
    fun a _ => z _, fun a => z _⟩
  · show |a / b * (1 + 2 ^ (-52 : ℤ)) - a / b| ≤ 2 ^ (-52 : ℤ) * |a / b|
    have e : a / b * (1 + 2 ^ (-52 : ℤ)) - a / b = 2 ^ (-52 : ℤ) * (a / b) := by ring
    rw [e, abs_mul, abs_of_pos (show (0:ℝ) < 2 ^ (-52 : ℤ) by positivity)]
  · have := z (Real.exp a)
    rwa [abs_of_pos (Real.exp_pos a)] at this

/-- **C119.** The loss is real: values `1` and `1 + 2·10⁻⁹`, a quotient wrong in the last place, and the
layer value is wrong by a part in ten million. -/
theorem C119_sharp : ∃ v v', layerValue true 1 (1 + 2e-9) = some v ∧
    quotientsHigh.layerValue true 1 (1 + 2e-9) = some (some v') ∧ 0 < v ∧ 1e-7 * v ≤ |v' - v| := by
  set w : ℝ := 2 ^ (-52 : ℤ) with hw
  have w0 : 0 < w := by positivity
  have w1 : w ≤ 2.3e-16 := by rw [hw]; norm_num
  have w2 : 2.2e-16 ≤ w := by rw [hw]; norm_num
  have ne : ¬((1:ℝ) < 0 ∨ (1:ℝ) + 2e-9 < 0) := by norm_num
  have ns : ¬(|(1:ℝ) + 2e-9 - 1| < 1e-9) := by
    rw [add_sub_cancel_left, abs_of_pos (by norm_num)]; norm_num
  have nz : ¬((1:ℝ) = 0 ∨ (1:ℝ) + 2e-9 = 0) := by norm_num
  set L := Real.log ((1 + 2e-9) / 1) with hL
  have L0 : 0 < L := Real.log_pos (by norm_num)
  have L1 : L ≤ 2e-9 := by
    have := Real.log_le_sub_one_of_pos (show (0:ℝ) < (1 + 2e-9) / 1 by norm_num)
    rw [hL]; norm_num at *; linarith
  have lw : 0.99 * w ≤ Real.log (1 + w) := by
    have := Real.one_sub_inv_le_log_of_pos (show 0 < 1 + w by linarith)
    have e : 1 - (1 + w)⁻¹ = w / (1 + w) := by field_simp; ring
    rw [e] at this
    refine le_trans ?_ this
    rw [le_div_iff₀ (by linarith)]
    have : w * w ≤ w * 1e-3 := mul_le_mul_of_nonneg_left (w1.trans (by norm_num)) w0.le
    norm_num at this ⊢
  have e : Real.log ((1 + 2e-9) / 1 * (1 + w)) = L + Real.log (1 + w) :=
    Real.log_mul (by norm_num) (by linarith)
  refine ⟨(1 + 2e-9 - 1) / L, (1 + 2e-9 - 1) / (L + Real.log (1 + w)) * (1 + w), ?_, ?_, ?_, ?_⟩
  · rw [Arith.layerValue_unf, if_neg ne, if_neg ns, if_neg nz]
  · unfold Arith.layerValue
    show (if (1:ℝ) < 0 ∨ (1:ℝ) + 2e-9 < 0 then some none
      else if |(1:ℝ) + 2e-9 - 1| < 1e-9 then some (some (1 + 2e-9))
      else if (1:ℝ) = 0 ∨ (1:ℝ) + 2e-9 = 0 then
        if !true then some (some 0) else some (some ((1 + 2e-9 + 1) * 0.5))
      else if Real.log ((1 + 2e-9) / 1 * (1 + w)) = 0 then none
      else some (some ((1 + 2e-9 - 1) / Real.log ((1 + 2e-9) / 1 * (1 + w)) * (1 + w)))) = _
    rw [if_neg ne, if_neg ns, if_neg nz, e, if_neg (add_pos L0 (lt_of_lt_of_le (by positivity) lw)).ne']
  · exact div_pos (by norm_num) L0
  · set D : ℝ := 1 + 2e-9 - 1
    have D0 : 0 < D := by norm_num [D]
    set q := Real.log (1 + w) with hq
    have q0 : 0 < q := lt_of_lt_of_le (by positivity) lw
    rw [abs_sub_comm]
    refine le_trans ?_ (le_abs_self _)
    have k : D / (L + q) * (1 + w) ≤ (1 - 1e-7) * (D / L) := by
      rw [div_mul_eq_mul_div, mul_div_assoc', div_le_div_iff₀ (by linarith) L0]
      have kk : (1 + w) * L ≤ (1 - 1e-7) * (L + q) := by
        have h1 : w * L ≤ w * 2e-9 := mul_le_mul_of_nonneg_left L1 w0.le
        norm_num at h1 lw L1 w1 w2 ⊢
        linarith
      have := mul_le_mul_of_nonneg_left kk D0.le
      linarith
    linarith

/-- The bound of `C119_layer` for the same values in double precision: `2.9·10⁻⁷`. -/
example : ∃ v', quotientsHigh.layerValue true 1 (1 + 2e-9) = some (some v') ∧ 0 ≤ v' ∧
    ∀ v, layerValue true 1 (1 + 2e-9) = some v → |v' - v| ≤ 3e-7 * v := by
  obtain ⟨v, hv⟩ := layerValue_some_of_nonneg true (show (0:ℝ) ≤ 1 by norm_num)
    (show (0:ℝ) ≤ 1 + 2e-9 by norm_num)
  obtain ⟨v', g1, g2, -, g4⟩ := C119_layer (X := 1.00001) quotientsHigh_accurate (by norm_num)
    (by norm_num) (by norm_num) (by norm_num) hv
  refine ⟨v', g1, g2, fun w hw => ?_⟩
  rw [hv] at hw
  cases hw
  refine (g4 ?_).trans (mul_le_mul_of_nonneg_right (by norm_num) (layerValue_nonneg hv))
  rw [add_sub_cancel_left, abs_of_pos (by norm_num : (0:ℝ) < 2e-9), abs_of_pos (by norm_num)]
  norm_num

/-- Four levels with the same absorption, 1 km apart. -/
def flat : Arith.Profiles := ⟨fun _ => 0.1, fun _ => 0.2, fun _ => 0, fun _ => 0⟩

theorem flat_bounded : Bounded 4 flat 1 := by
  intro i _
  norm_num [flat]

theorem flat_opacities : ∃ τ, Arith.exact.opacities 4 flat (fun _ => 1) = some τ ∧
    opacityBelow τ (4 - 1) = 0.9 ∧ ∀ i, 1 ≤ i → i ≤ 3 → τ i = 0.3 := by
  have lv : ∀ (z : Bool) (a : ℝ), 0 ≤ a → layerValue z a a = some a := fun z a h => by
    rw [Arith.layerValue_unf, if_neg (by push Not; exact ⟨h, h⟩), if_pos (by norm_num)]
  have xi : ∀ (z : Bool) (a : ℝ), 0 ≤ a → Arith.exact.expInt z 4 (fun _ => a) (fun _ => 1) 1 4 1
      = some (.ok ((∑ i ∈ Finset.Ico 1 4, a * 1) * 1, fun i => if 1 ≤ i ∧ i < 4 then a * 1 else 0)) := by
    intro z a h
    rw [C119_same_program, expInt_ok (v := fun _ => a) (by norm_num)]
    intro i _ _
    have : prevEntry (fun _ => a) 4 i = a := by unfold prevEntry; split_ifs <;> rfl
    rw [this]; exact lv z a h
  have q : ∃ τ, Arith.exact.opacities 4 flat (fun _ => 1) = some τ ∧ ∀ i, 1 ≤ i → i ≤ 3 → τ i = 0.3 := by
    unfold Arith.opacities flat
    simp only
    rw [xi true 0.1 (by norm_num), xi true 0.2 (by norm_num), xi false 0 le_rfl]
    refine ⟨_, rfl, fun i k1 k2 => ?_⟩
    simp only [Arith.exact_add, if_pos (And.intro k1 (show i < 4 by omega))]
    norm_num
  obtain ⟨τ, q1, τe⟩ := q
  refine ⟨τ, q1, ?_, τe⟩
  unfold opacityBelow
  rw [Finset.sum_congr rfl (fun i hi => τe i (Finset.mem_Icc.1 hi).1 (Finset.mem_Icc.1 hi).2)]
  norm_num

/-- The isothermal scene, seen from above, in the arithmetic `shaved` of C118. -/
example : ∃ T T', Arith.exact.tbProfile true 1 50 4 (fun _ => 280) flat (fun _ => 1) = some T ∧
    shaved.tbProfile true 1 50 4 (fun _ => 280) flat (fun _ => 1) = some T' ∧ |T' - T| ≤ 5e-7 := by
  obtain ⟨τ, q1, τs, -⟩ := flat_opacities
  have hk : hvkOf 50 ≤ 280 := by norm_num [hvkOf, cPlanck, cBoltzmann]
  obtain ⟨T, T', g1, g2, g3⟩ := C119_satellite (m := 280) (M := 280) (t := fun _ => 280) (ds := fun _ => 1)
    (frq := 50) (X := 1) shaved_accurate (by norm_num) (by norm_num) (by norm_num : 0 < 4) (by norm_num) hk
    (by norm_num) (by norm_num) (fun _ _ => ⟨le_rfl, le_rfl⟩) flat_bounded (by norm_num)
    (fun _ _ _ => by norm_num) (by norm_num [opacityBelow]) q1 (by rw [τs]; norm_num)
  refine ⟨T, T', g1, g2, ?_⟩
  rw [sub_self, zero_div, zero_mul, add_zero] at g3
  exact g3

/-- The same scene from the ground. -/
example : ∃ T T', Arith.exact.tbProfile false 1 50 4 (fun _ => 280) flat (fun _ => 1) = some T ∧
    shaved.tbProfile false 1 50 4 (fun _ => 280) flat (fun _ => 1) = some T' ∧ |T' - T| ≤ 1e-4 := by
  obtain ⟨τ, q1, τs, τe⟩ := flat_opacities
  obtain ⟨out, ho⟩ := planck_exists (s := false) (es := 1) (frq := 50) (nl := 4) (t := fun _ => 280) (τ := τ)
    (by norm_num)
  obtain ⟨T, k1, k2, -⟩ := C04_downwelling_between (m := 2.728) (M := 280) (by norm_num)
      (by norm_num) le_rfl (by norm_num) (fun i hi => ⟨by norm_num, le_rfl⟩)
      (fun i h1 h2 => by rw [τe i h1 (by omega)]; norm_num) (by rw [τs]; norm_num) ho
  have hT : Arith.exact.tbProfile false 1 50 4 (fun _ => 280) flat (fun _ => 1) = some T := by
    unfold Arith.tbProfile
    rw [q1]
    show Arith.exact.tbtotal false 1 50 4 _ τ = some T
    rw [C118_same_program, ho]; exact k1
  have hk : hvkOf 50 ≤ 2.4 := by norm_num [hvkOf, cPlanck, cBoltzmann]
  obtain ⟨T', g1, g2⟩ := C119_any (M := 280) (X := 1) (E := (2.3e-15 + 3e-7 * 1) * 0.9 + 4.9e-9 * 3)
    shaved_accurate (by norm_num) (by norm_num) ⟨zero_le_one, le_rfl⟩ (by norm_num) (by norm_num) (by norm_num)
    (fun i hi => ⟨by norm_num, le_rfl⟩) flat_bounded (by norm_num) (fun _ _ _ => by norm_num)
    (by norm_num [opacityBelow]) q1 (by rw [τs]; norm_num)
    (by rw [τs, show opacityBelow (fun _ => 1) (4 - 1) = 3 by norm_num [opacityBelow]]) hT
    (by norm_num at hk k2 ⊢; linarith)
  exact ⟨T, T', hT, g1, g2.trans (by norm_num)⟩

end Verif.Props
