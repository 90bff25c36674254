import Verif.Lemmas.Integration

/-!
# C14–C18: path integrals

Statements about `expInt` (`exponential_integration`) and `cloudDensity` (`cloud_integrated_density`).
-/

namespace Verif.Props

open Verif.Py Verif.Spec Verif.Model Finset

variable {z : Bool} {nl ibeg iend : ℕ} {x ds xds : ℕ → ℝ} {factor s : ℝ}

/-- The closed form that all "no negative value" theorems use. -/
private theorem ok_form (hle : ibeg ≤ nl) (hx : ∀ i < nl, 0 ≤ x i) :
    expInt z nl x ds ibeg nl factor =
      .ok ((∑ i ∈ Ico ibeg nl, layerVal z x nl i * ds i) * factor,
        fun i => if ibeg ≤ i ∧ i < nl then layerVal z x nl i * ds i else 0) := by
  refine expInt_ok hle fun i _ h2 => layerVal_spec ?_ (hx i h2)
  unfold prevEntry
  split
  · exact hx _ (by omega)
  · exact hx _ (by omega)

private theorem layer_form (hle : ibeg ≤ nl) (hx : ∀ i < nl, 0 ≤ x i)
    (h : expInt z nl x ds ibeg nl factor = .ok (s, xds)) {i : ℕ} (h1 : ibeg ≤ i) (h0 : 0 < i)
    (h2 : i < nl) :
    ∃ v, layerValue z (x (i - 1)) (x i) = some v ∧ xds i = v * ds i := by
  rw [ok_form hle hx] at h
  cases h
  refine ⟨layerVal z x nl i, ?_, by simp [h1, h2]⟩
  have hp : prevEntry x nl i = x (i - 1) := by unfold prevEntry; rw [if_neg h0.ne']
  rw [← hp]
  exact layerVal_spec (by rw [hp]; exact hx _ (by omega)) (hx i h2)

/-! ## C14 -/

/-- Two different positive level values: the layer integral is the path increment times the true mean of
the exponential profile between them. -/
theorem C14_exponential_mean (hle : ibeg ≤ nl) (hx : ∀ i < nl, 0 ≤ x i)
    (h : expInt z nl x ds ibeg nl factor = .ok (s, xds)) {i : ℕ} (h1 : ibeg ≤ i) (h0 : 0 < i)
    (h2 : i < nl) (ha : 0 < x (i - 1)) (hb : 0 < x i) (hd : 1e-9 ≤ |x i - x (i - 1)|) :
    xds i = expProfileMean (x (i - 1)) (x i) * ds i := by
  obtain ⟨v, hv, e⟩ := layer_form hle hx h h1 h0 h2
  have hne : x (i - 1) ≠ x i := by
    intro hh; rw [hh] at hd; simp at hd; norm_num at hd
  rw [e, expProfileMean_eq ha hb hne]
  unfold layerValue at hv
  rw [norm_zero', if_neg (by push Not; exact ⟨ha.le, hb.le⟩), if_neg (not_lt.2 hd),
    if_neg (by push Not; exact ⟨ha.ne', hb.ne'⟩)] at hv
  cases hv; rfl

/-- In every case the layer value lies between the two level values. -/
theorem C14_between (hle : ibeg ≤ nl) (hx : ∀ i < nl, 0 ≤ x i)
    (h : expInt z nl x ds ibeg nl factor = .ok (s, xds)) {i : ℕ} (h1 : ibeg ≤ i) (h0 : 0 < i)
    (h2 : i < nl) (hds : 0 ≤ ds i) :
    min (x (i - 1)) (x i) * ds i ≤ xds i ∧ xds i ≤ max (x (i - 1)) (x i) * ds i := by
  obtain ⟨v, hv, e⟩ := layer_form hle hx h h1 h0 h2
  have hb := layerValue_bounds hv
  rw [e]
  exact ⟨mul_le_mul_of_nonneg_right hb.1 hds, mul_le_mul_of_nonneg_right hb.2 hds⟩

/-- The degenerate layers: nearly equal values use the upper one; if exactly one of two well separated
values is zero the layer counts 0 or the average, depending on the flag. -/
theorem C14_degenerate (hle : ibeg ≤ nl) (hx : ∀ i < nl, 0 ≤ x i)
    (h : expInt z nl x ds ibeg nl factor = .ok (s, xds)) {i : ℕ} (h1 : ibeg ≤ i) (h0 : 0 < i)
    (h2 : i < nl) :
    (|x i - x (i - 1)| < 1e-9 → xds i = x i * ds i) ∧
    (1e-9 ≤ |x i - x (i - 1)| → (x (i - 1) = 0 ∨ x i = 0) →
      xds i = if z then (x (i - 1) + x i) / 2 * ds i else 0) := by
  obtain ⟨v, hv, e⟩ := layer_form hle hx h h1 h0 h2
  have hn : ¬ (x (i - 1) < 0 ∨ x i < 0) := by
    push Not; exact ⟨hx _ (by omega), hx i h2⟩
  unfold layerValue at hv
  rw [norm_zero', if_neg hn] at hv
  refine ⟨fun hd => ?_, fun hd hz => ?_⟩
  · rw [if_pos hd] at hv; cases hv; exact e
  · rw [if_neg (not_lt.2 hd), if_pos hz] at hv
    rw [e]
    cases z
    · simp at hv; rw [← hv]; simp
    · simp at hv; rw [← hv]; simp; left; ring

example : ∃ s xds, expInt true 3 (fun i => 2 - i) (fun _ => 4) 1 3 0.1 = .ok (s, xds) ∧
    xds 1 = expProfileMean 2 1 * 4 ∧ xds 2 = 2 := by
  have hx : ∀ i < 3, (0:ℝ) ≤ (fun i : ℕ => (2:ℝ) - i) i := fun i hi => by
    have : (i:ℝ) ≤ 2 := by exact_mod_cast Nat.lt_succ_iff.1 hi
    simpa using this
  have h := ok_form (z := true) (nl := 3) (ibeg := 1) (x := fun i => 2 - i) (ds := fun _ => 4)
    (factor := 0.1) (by decide) hx
  refine ⟨_, _, h, ?_, ?_⟩
  · have := C14_exponential_mean (by decide) hx h (i := 1) le_rfl (by decide) (by decide)
      (by norm_num) (by norm_num) (by norm_num)
    rw [this]; norm_num
  · have := (C14_degenerate (by decide) hx h (i := 2) (by decide) (by decide) (by decide)).2
      (by norm_num) (by norm_num)
    rw [this]; norm_num

/-! ## C15 -/

/-- No negative value: the call succeeds and the total is `factor` times the sum of the layers. -/
theorem C15_sum (hle : ibeg ≤ nl) (hx : ∀ i < nl, 0 ≤ x i) :
    ∃ s xds, expInt z nl x ds ibeg nl factor = .ok (s, xds) ∧
      s = factor * ∑ i ∈ range nl, xds i := by
  refine ⟨_, _, ok_form hle hx, ?_⟩
  rw [mul_comm]
  congr 1
  rw [range_eq_Ico, ← sum_Ico_consecutive _ (Nat.zero_le ibeg) hle]
  have : ∑ i ∈ Ico 0 ibeg, (if ibeg ≤ i ∧ i < nl then layerVal z x nl i * ds i else 0) = 0 :=
    sum_eq_zero fun i hi => by
      simp at hi
      rw [if_neg (by omega)]
  rw [this, zero_add]
  refine sum_congr rfl fun i hi => ?_
  simp at hi
  rw [if_pos hi]

/-- Scaling the path scales layers and total, whatever the profile (negative values included). -/
theorem C15_path_scaling (c : ℝ) (hle : ibeg ≤ nl) :
    ∃ s xds, expInt z nl x ds ibeg nl factor = .ok (s, xds) ∧
      expInt z nl x (fun i => c * ds i) ibeg nl factor = .ok (c * s, fun i => c * xds i) := by
  rcases first_bad x nl ibeg nl with h | ⟨i0, h1, h2, h3, h4⟩
  · have hv := fun i h1 h2 => layerVal_spec (z := z) (h i h1 h2).1 (h i h1 h2).2
    refine ⟨_, _, expInt_ok hle hv, ?_⟩
    rw [expInt_ok hle hv]
    congr 2
    · rw [← mul_assoc, mul_sum]; congr 1
      exact sum_congr rfl fun i _ => by ring
    · funext i; split_ifs
      · ring
      · ring
  · have hv := fun i h1 h2 => layerVal_spec (z := z) (h4 i h1 h2).1 (h4 i h1 h2).2
    refine ⟨_, _, expInt_bad h1 h2 h2 hv h3, ?_⟩
    rw [expInt_bad h1 h2 h2 hv h3]
    congr 2
    · rw [mul_sum]
      exact sum_congr rfl fun i _ => by ring
    · funext i; split_ifs
      · ring
      · ring

/-- With non-negative path increments every returned layer integral is non-negative, whatever the profile. -/
theorem C15_nonneg (hds : ∀ i < nl, 0 ≤ ds i)
    (h : expInt z nl x ds ibeg iend factor = .ok (s, xds)) (i : ℕ) : 0 ≤ xds i := by
  unfold expInt at h
  have hI := forRangeE_inv (lo := min ibeg iend) (hi := iend) (f := expIntBody z nl x ds)
    (s := (0.0, fun _ => 0)) (I := fun _ (s : ℝ × (ℕ → ℝ)) => ∀ i, 0 ≤ s.2 i)
    (E := fun r => ∀ s, r = Except.ok s → ∀ i, 0 ≤ s.2 i) (min_le_right _ _)
    (fun _ => le_rfl) (by
      intro k st _ _ hst
      unfold expIntBody
      split_ifs with hk
      · right; exact ⟨_, rfl, fun s hs => by cases hs⟩
      · cases hv : layerValue z (prevEntry x nl k) (x k) with
        | none => right; exact ⟨_, rfl, fun s hs => by cases hs; exact hst⟩
        | some v =>
          left
          refine ⟨_, rfl, fun j => ?_⟩
          simp only [Function.update_apply]
          split_ifs
          · exact mul_nonneg (layerValue_nonneg hv) (hds k (by omega))
          · exact hst j)
  have hmin : forRangeE (min ibeg iend) iend (expIntBody z nl x ds) (0.0, fun _ => 0) =
      forRangeE ibeg iend (expIntBody z nl x ds) (0.0, fun _ => 0) := by
    rcases le_total ibeg iend with hh | hh
    · rw [min_eq_left hh]
    · rw [min_eq_right hh, forRangeE_of_le le_rfl, forRangeE_of_le hh]
  rw [hmin] at hI
  rcases hI with ⟨s', e, hs⟩ | ⟨r, e, hs⟩
  · rw [e] at h
    simp only at h
    split_ifs at h
    cases h
    exact hs i
  · rw [e] at h
    exact hs _ h i

/-- The call never raises when it integrates to the end of the arrays, whatever the profile values. -/
theorem C15_total (hle : ibeg ≤ nl) : ∃ r, expInt z nl x ds ibeg nl factor = .ok r := by
  obtain ⟨s, xds, h, -⟩ := C15_path_scaling (z := z) (x := x) (ds := ds) (factor := factor) 1 hle
  exact ⟨_, h⟩

/-- Integrating a non-negative profile to any other end level than the length of the arrays always raises
(the result is reshaped to `iend` entries). -/
theorem C15_subrange_raises (hle : ibeg ≤ iend) (hlt : iend < nl) (hx : ∀ i < nl, 0 ≤ x i) :
    expInt z nl x ds ibeg iend factor = .error .valueError := by
  unfold expInt
  rw [expInt_loop_ok (v := layerVal z x nl) hle hlt.le fun i h1 h2 => layerVal_spec ?_ (hx i (by omega))]
  · simp [hlt.ne]
  · unfold prevEntry
    split
    · exact hx _ (by omega)
    · exact hx _ (by omega)

example : ∃ s xds, expInt true 3 (fun _ => 2) (fun i => i) 0 3 0.1 = .ok (s, xds) ∧
    s = 0.1 * ∑ i ∈ range 3, xds i := C15_sum (by decide) (fun _ _ => by norm_num)
example : expInt true 5 (fun _ => 2) (fun i => i) 1 3 0.1 = .error .valueError :=
  C15_subrange_raises (by decide) (by decide) (fun _ _ => by norm_num)

/-! ## C16 -/

/-- First negative layer `i0` (one of its two level values is negative, none before): the layers before
`i0` are those of the profile cut off below `i0`, all others are zero, and the total is their plain sum, i.e.
what the cut profile gives with factor 1, whatever `factor` was requested.  No exception. -/
theorem C16_truncation {i0 : ℕ} (h0 : 1 ≤ ibeg) (h1 : ibeg ≤ i0) (h2 : i0 < iend) (h3 : i0 < nl)
    (hbad : x (i0 - 1) < 0 ∨ x i0 < 0) (hx : ∀ i, ibeg ≤ i → i < i0 → 0 ≤ x (i - 1) ∧ 0 ≤ x i) :
    ∃ s xds, expInt z nl x ds ibeg iend factor = .ok (s, xds) ∧
      (∀ i, i0 ≤ i → xds i = 0) ∧ s = ∑ i ∈ Ico ibeg i0, xds i ∧
      expInt z i0 x ds ibeg i0 1 = .ok (s, xds) := by
  have hp : ∀ n i, ibeg ≤ i → prevEntry x n i = x (i - 1) := fun n i hi => by
    unfold prevEntry; rw [if_neg (by omega)]
  have hv : ∀ i, ibeg ≤ i → i < i0 →
      layerValue z (prevEntry x nl i) (x i) = some (layerVal z x nl i) := fun i h1 h2 =>
    layerVal_spec (by rw [hp _ _ h1]; exact (hx i h1 h2).1) (hx i h1 h2).2
  have hv' : ∀ i, ibeg ≤ i → i < i0 →
      layerValue z (prevEntry x i0 i) (x i) = some (layerVal z x nl i) := fun i h1 h2 => by
    rw [hp _ _ h1, ← hp nl _ h1]; exact hv i h1 h2
  refine ⟨_, _, expInt_bad h1 h2 h3 hv (by rw [hp _ _ h1]; exact hbad), ?_, ?_, ?_⟩
  · intro i hi; simp; intro _ hlt; omega
  · refine sum_congr rfl fun i hi => ?_
    simp at hi; rw [if_pos hi]
  · rw [expInt_ok h1 hv', mul_one]

/-- Concrete instance of the missing factor: one good layer of value 2·4, then a negative level, factor 0.1:
the reported total is 8, not 0.8. -/
theorem C16_factor_lost : ∃ xds, expInt true 3 (fun i => if i < 2 then 2 else -1) (fun _ => 4) 1 3 0.1 =
    .ok (8, xds) ∧ xds 1 = 8 ∧ xds 2 = 0 := by
  have hv : ∀ i, 1 ≤ i → i < 2 → layerValue true (prevEntry (fun i => if i < 2 then 2 else -1) 3 i)
      ((fun i : ℕ => if i < 2 then (2:ℝ) else -1) i) = some 2 := fun i h1 h2 => by
    obtain rfl : i = 1 := by omega
    unfold layerValue prevEntry
    norm_num
  have := expInt_bad (z := true) (nl := 3) (x := fun i => if i < 2 then 2 else -1) (ds := fun _ => 4)
    (ibeg := 1) (iend := 3) (i0 := 2) (factor := 0.1) (v := fun _ => 2) (by decide) (by decide)
    (by decide) hv (by norm_num)
  refine ⟨fun i => if 1 ≤ i ∧ i < 2 then 2 * 4 else 0, ?_, ?_, ?_⟩
  · rw [this]
    congr 2
    norm_num
  · norm_num
  · norm_num

example : ∃ s xds, expInt true 4 (fun i => if i < 2 then 2 else -1) (fun _ => 4) 1 4 0.1 = .ok (s, xds) ∧
    xds 3 = 0 ∧ s = ∑ i ∈ Ico 1 2, xds i := by
  obtain ⟨s, xds, h, h1, h2, -⟩ := C16_truncation (z := true) (nl := 4) (iend := 4) (ibeg := 1) (i0 := 2)
    (x := fun i => if i < 2 then 2 else -1) (ds := fun _ => 4) (factor := 0.1) (by decide) (by decide)
    (by decide) (by decide) (by norm_num) (fun i h1 h2 => by
      obtain rfl : i = 1 := by omega
      norm_num)
  exact ⟨s, xds, h, h1 3 (by decide), h2⟩

/-! ## C17 -/

/-- With a zero first increment and no negative value, starting at level 0 equals starting at level 1. -/
theorem C17_start_irrelevant (hnl : 1 ≤ nl) (hds : ds 0 = 0) (hx : ∀ i < nl, 0 ≤ x i) :
    expInt z nl x ds 0 nl factor = expInt z nl x ds 1 nl factor := by
  rw [ok_form (Nat.zero_le _) hx, ok_form hnl hx]
  have h0 : ∑ i ∈ Ico 0 nl, layerVal z x nl i * ds i = ∑ i ∈ Ico 1 nl, layerVal z x nl i * ds i := by
    rw [← sum_Ico_consecutive _ (Nat.zero_le 1) hnl]
    simp [hds]
  rw [h0]
  congr 2
  funext i
  rcases Nat.eq_zero_or_pos i with rfl | hi
  · simp [hds]
  · simp only [Nat.zero_le, true_and, show 1 ≤ i from hi]

/-- If only the last value is negative, starting at level 0 gives total 0 and all layers 0, although every
layer below is valid and would be counted when starting at level 1. -/
theorem C17_last_negative (hnl : 2 ≤ nl) (hlast : x (nl - 1) < 0) (hx : ∀ i, i + 1 < nl → 0 ≤ x i) :
    expInt z nl x ds 0 nl factor = .ok (0, fun _ => 0) ∧
    ∃ s xds, expInt z nl x ds 1 nl factor = .ok (s, xds) ∧
      expInt z (nl - 1) x ds 1 (nl - 1) 1 = .ok (s, xds) := by
  constructor
  · rw [expInt_bad (i0 := 0) (v := fun _ => 0) le_rfl (by omega) (by omega) (fun i _ h => by omega)
      (by unfold prevEntry; left; simpa using hlast)]
    simp
  · obtain ⟨s, xds, h1, -, -, h2⟩ := C16_truncation (z := z) (ds := ds) (factor := factor) (ibeg := 1)
      (iend := nl) (nl := nl) (i0 := nl - 1) (x := x) le_rfl (by omega) (by omega) (by omega)
      (Or.inr hlast) (fun i h1 h2 => ⟨hx _ (by omega), hx i (by omega)⟩)
    exact ⟨s, xds, h1, h2⟩

/-- A non-zero first increment makes the wrapped-around layer count: the two calls differ. -/
theorem C17_needs_zero_increment :
    expInt true 2 (fun _ => 1) (fun _ => 1) 0 2 1 ≠ expInt true 2 (fun _ => 1) (fun _ => 1) 1 2 1 := by
  have hv : ∀ b i, b ≤ i → i < 2 → layerValue true (prevEntry (fun _ => 1) 2 i) ((fun _ : ℕ => (1:ℝ)) i)
      = some 1 := fun b i _ _ => by
    unfold layerValue prevEntry; norm_num
  rw [expInt_ok (by decide) (hv 0), expInt_ok (by decide) (hv 1)]
  intro h
  have := (Prod.mk.inj (Except.ok.inj h)).1
  norm_num [sum_Ico_succ_top] at this

example : expInt true 3 (fun i => i) (fun i => i) 0 3 0.1 = expInt true 3 (fun i => i) (fun i => i) 1 3 0.1 :=
  C17_start_irrelevant (by decide) (by norm_num) (fun i _ => by positivity)
example : expInt true 3 (fun i => if i < 2 then 5 else -1) (fun i => i) 0 3 0.1 = .ok (0, fun _ => 0) :=
  (C17_last_negative (by decide) (by norm_num) (fun i hi => by
    have : i < 2 := by omega
    simp [this])).1

/-! ## C18 -/

private theorem cloud_inner (den ds : ℕ → ℝ) (l u : ℕ) (s : ℝ) :
    forRange l u (fun j scld => scld + ds j * (0.5 * (den j + den (j - 1)))) s =
      s + trapezoid den ds l u := by
  unfold trapezoid
  rcases le_total l u with h | h
  · induction u, h using Nat.le_induction with
    | base => simp
    | succ n hn ih => rw [forRange_succ hn, ih, sum_Ico_succ_top hn]; ring
  · rw [forRange_of_le h, Ico_eq_empty_of_le h]; simp

/-- The integrated cloud density is 0.1 times the sum over clouds of the trapezoidal integral over the
layers base+1 … top-1 (the layer that ends at the cloud top is not included). -/
theorem C18_trapezoid (den ds : ℕ → ℝ) (clouds : List (ℕ × ℕ)) :
    cloudDensity den ds clouds = 0.1 * (clouds.map fun c => trapezoid den ds (c.1 + 1) c.2).sum := by
  unfold cloudDensity
  have : ∀ s : ℝ, clouds.foldl (fun scld c => forRange (c.1 + 1) c.2
      (fun j scld => scld + ds j * (0.5 * (den j + den (j - 1)))) scld) s =
      s + (clouds.map fun c => trapezoid den ds (c.1 + 1) c.2).sum := by
    induction clouds with
    | nil => intro s; simp
    | cons c cs ih =>
      intro s
      rw [List.foldl_cons, cloud_inner, ih, List.map_cons, List.sum_cons]; ring
  rw [this, norm_zero']; ring

/-- Additive over clouds. -/
theorem C18_additive (den ds : ℕ → ℝ) (c d : List (ℕ × ℕ)) :
    cloudDensity den ds (c ++ d) = cloudDensity den ds c + cloudDensity den ds d := by
  rw [C18_trapezoid, C18_trapezoid, C18_trapezoid, List.map_append, List.sum_append]; ring

/-- Non-negative for non-negative densities and path increments. -/
theorem C18_nonneg (den ds : ℕ → ℝ) (clouds : List (ℕ × ℕ)) (hd : ∀ i, 0 ≤ den i) (hs : ∀ i, 0 ≤ ds i) :
    0 ≤ cloudDensity den ds clouds := by
  rw [C18_trapezoid]
  refine mul_nonneg (by norm_num) (List.sum_nonneg fun y hy => ?_)
  simp only [List.mem_map] at hy
  obtain ⟨c, -, rfl⟩ := hy
  exact sum_nonneg fun j _ => mul_nonneg (hs j) (by linarith [hd j, hd (j - 1)])

/-- The uppermost layer is left out: the result is what the full trapezoid over base+1 … top would give, minus
the top layer. -/
theorem C18_top_layer_missing (den ds : ℕ → ℝ) {base top : ℕ} (h : base < top) :
    cloudDensity den ds [(base, top)] =
      0.1 * (trapezoid den ds (base + 1) (top + 1) - ds top * ((den top + den (top - 1)) / 2)) := by
  rw [C18_trapezoid]
  unfold trapezoid
  rw [sum_Ico_succ_top h]
  simp

/-- A cloud one layer thick has integrated density 0 whatever its water content. -/
theorem C18_one_layer_cloud_is_dry (den ds : ℕ → ℝ) (base : ℕ) :
    cloudDensity den ds [(base, base + 1)] = 0 := by
  rw [C18_trapezoid]; simp [trapezoid]

example : cloudDensity (fun _ => 1) (fun _ => 2) [(3, 6)] = 0.4 := by
  rw [C18_trapezoid]; norm_num [trapezoid, sum_Ico_succ_top]

end Verif.Props
