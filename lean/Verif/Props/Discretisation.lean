import Verif.Lemmas.Continuous
import Verif.Props.OpacityError
import Verif.Props.Integration

/-!
# C93, C94: layers against the radiative transfer equation

An atmosphere given by continuous functions along the path, sampled at levels: how far are the layer opacities from the
integrals of the absorption coefficient (C93), how far is the radiance from the solution of the radiative transfer
equation (C94), and do both errors vanish when levels are added.
-/

namespace Verif.Props

open Verif.Model Verif.Py Verif.Spec Verif.Lemmas Real Set

variable {z : Bool} {n : ℕ} {s ds xds ωs : ℕ → ℝ} {L tot factor ω ε es frq m M : ℝ} {α T : ℝ → ℝ} {out : PlanckOut}

/-- `ds` holds the lengths of the layers. -/
def Lengths (n : ℕ) (s ds : ℕ → ℝ) : Prop := ∀ i, 1 ≤ i → i ≤ n → ds i = s i - s (i - 1)

/-! ## C93 -/

/-- **C93.** One layer: the integrated absorption differs from the true integral over the layer by at most the swing of
the absorption coefficient within the layer times the length of the layer. -/
theorem C93_layer (hL : Levels n L s) (hd : Lengths n s ds) (hα : ContinuousOn α (Icc 0 L))
    (hα0 : ∀ u ∈ Icc 0 L, 0 ≤ α u) (hω : Swing n s α ωs)
    (h : expInt z (n + 1) (fun i => α (s i)) ds 1 (n + 1) factor = .ok (tot, xds)) {i : ℕ} (h1 : 1 ≤ i) (h2 : i ≤ n) :
    |xds i - pathOpacity α (s (i - 1)) (s i)| ≤ ωs i * (s i - s (i - 1)) := by
  have hb := C14_between (by omega) (fun i hi => hα0 _ (hL.mem (by omega))) h h1 (by omega) (by omega)
    (by rw [hd i h1 h2]; exact sub_nonneg.2 (hL.mono (Nat.sub_le i 1) h2))
  have hle := hL.mono (Nat.sub_le i 1) h2
  have hsub : Icc (s (i - 1)) (s i) ⊆ Icc 0 L := Icc_subset_Icc (hL.mem (by omega)).1 (hL.mem h2).2
  have hint : IntervalIntegrable α MeasureTheory.volume (s (i - 1)) (s i) :=
    (hα.mono (by rw [uIcc_of_le hle]; exact hsub)).intervalIntegrable
  rw [hd i h1 h2] at hb
  have lower {x : ℝ} (hx : ∀ u ∈ Icc (s (i - 1)) (s i), x - ωs i ≤ α u) :
      (x - ωs i) * (s i - s (i - 1)) ≤ pathOpacity α (s (i - 1)) (s i) := by
    have := intervalIntegral.integral_mono_on hle (_root_.intervalIntegrable_const) hint hx
    rw [intervalIntegral.integral_const, smul_eq_mul] at this
    unfold pathOpacity
    linarith
  have upper {x : ℝ} (hx : ∀ u ∈ Icc (s (i - 1)) (s i), α u ≤ x + ωs i) :
      pathOpacity α (s (i - 1)) (s i) ≤ (x + ωs i) * (s i - s (i - 1)) := by
    have := intervalIntegral.integral_mono_on hle hint (_root_.intervalIntegrable_const) hx
    rw [intervalIntegral.integral_const, smul_eq_mul] at this
    unfold pathOpacity
    linarith
  have sw := hω i h1 h2
  have l1 := lower (x := max (α (s (i - 1))) (α (s i))) fun u hu => by
    have a1 := abs_le.1 (sw _ ⟨le_rfl, hle⟩ u hu)
    have a2 := abs_le.1 (sw _ ⟨hle, le_rfl⟩ u hu)
    rw [sub_le_iff_le_add]
    exact max_le (by linarith) (by linarith)
  have l2 := upper (x := min (α (s (i - 1))) (α (s i))) fun u hu => by
    have a1 := abs_le.1 (sw _ ⟨le_rfl, hle⟩ u hu)
    have a2 := abs_le.1 (sw _ ⟨hle, le_rfl⟩ u hu)
    rw [← sub_le_iff_le_add]
    exact le_min (by linarith) (by linarith)
  rw [abs_le]
  constructor <;> nlinarith

/-- C93: the whole path. -/
theorem C93_total (hL : Levels n L s) (hd : Lengths n s ds) (hα : ContinuousOn α (Icc 0 L))
    (hα0 : ∀ u ∈ Icc 0 L, 0 ≤ α u) (hω : Swing n s α ωs)
    (h : expInt z (n + 1) (fun i => α (s i)) ds 1 (n + 1) factor = .ok (tot, xds)) :
    |tot - factor * pathOpacity α 0 L| ≤ |factor| * ∑ i ∈ Finset.Icc 1 n, ωs i * (s i - s (i - 1)) := by
  obtain ⟨tot', xds', h', e⟩ := C15_sum (z := z) (nl := n + 1) (ibeg := 1) (x := fun i => α (s i)) (ds := ds)
    (factor := factor) (by omega) (fun i hi => hα0 _ (hL.mem (by omega)))
  have h0 : xds 0 = 0 := by
    have hp : ∀ i < n + 1, 0 ≤ α (s i) := fun i hi => hα0 _ (hL.mem (by omega))
    rw [expInt_ok (v := layerVal z (fun i => α (s i)) (n + 1)) (by omega) fun i h1 h2 => layerVal_spec (by
      unfold prevEntry; rw [if_neg (by omega)]; exact hp _ (by omega)) (hp i h2)] at h
    cases h
    simp
  rw [h] at h'
  cases h'
  have hsum : ∑ i ∈ Finset.range (n + 1), xds i = ∑ i ∈ Finset.Icc 1 n, xds i := by
    rw [Finset.sum_range_succ', h0, add_zero, Finset.range_eq_Ico]
    rw [Finset.sum_Ico_add' xds 0 n 1]
    rfl
  have hpath : ∑ i ∈ Finset.Icc 1 n, pathOpacity α (s (i - 1)) (s i) = pathOpacity α 0 L := by
    have := intervalIntegral.sum_integral_adjacent_intervals (a := s) (n := n) (f := α) (μ := MeasureTheory.volume)
      fun k hk => (hα.mono (by
        rw [uIcc_of_le (hL.order k hk)]
        exact Icc_subset_Icc (hL.mem (by omega)).1 (hL.mem hk).2)).intervalIntegrable
    rw [hL.bottom, hL.top, Finset.range_eq_Ico] at this
    have e := Finset.sum_Ico_add' (fun i => pathOpacity α (s (i - 1)) (s i)) 0 n 1
    simp only [Nat.add_sub_cancel] at e
    unfold pathOpacity at e ⊢
    rw [← this, e]
    rfl
  rw [e, hsum, ← hpath, ← mul_sub, abs_mul, ← Finset.sum_sub_distrib]
  refine mul_le_mul_of_nonneg_left ((Finset.abs_sum_le_sum_abs _ _).trans (Finset.sum_le_sum fun i hi => ?_))
    (abs_nonneg _)
  rw [Finset.mem_Icc] at hi
  exact C93_layer hL hd hα hα0 hω h hi.1 hi.2

/-- Total swing of a profile that falls along the path. -/
theorem C93_falling (hL : Levels n L s) (hd : Lengths n s ds) (hα : ContinuousOn α (Icc 0 L))
    (hα0 : ∀ u ∈ Icc 0 L, 0 ≤ α u) (hmono : AntitoneOn α (Icc 0 L)) {δ : ℝ} (hδ : FinerThan n s δ)
    (h : expInt z (n + 1) (fun i => α (s i)) ds 1 (n + 1) 1 = .ok (tot, xds)) :
    |tot - pathOpacity α 0 L| ≤ (α 0 - α L) * δ := by
  have hω : Swing n s α fun i => α (s (i - 1)) - α (s i) := fun i h1 h2 u hu v hv => by
    have hle := hL.mono (Nat.sub_le i 1) h2
    have hsub : Icc (s (i - 1)) (s i) ⊆ Icc 0 L := Icc_subset_Icc (hL.mem (by omega)).1 (hL.mem h2).2
    have a1 := hmono (hsub ⟨le_rfl, hle⟩) (hsub hu) hu.1
    have a2 := hmono (hsub hu) (hsub ⟨hle, le_rfl⟩) hu.2
    have a3 := hmono (hsub ⟨le_rfl, hle⟩) (hsub hv) hv.1
    have a4 := hmono (hsub hv) (hsub ⟨hle, le_rfl⟩) hv.2
    rw [abs_le]
    constructor <;> linarith
  have key := C93_total hL hd hα hα0 hω h
  rw [one_mul, abs_one, one_mul] at key
  refine key.trans ?_
  have e : ∑ i ∈ Finset.Icc 1 n, (α (s (i - 1)) - α (s i)) * δ = (α 0 - α L) * δ := by
    rw [← Finset.sum_mul]
    congr 1
    have := Finset.sum_range_sub' (fun i => α (s i)) n
    rw [hL.bottom, hL.top] at this
    rw [← this, Finset.range_eq_Ico]
    have e := Finset.sum_Ico_add' (fun i => α (s (i - 1)) - α (s i)) 0 n 1
    simp only [Nat.add_sub_cancel] at e
    rw [e]
    rfl
  rw [← e]
  refine Finset.sum_le_sum fun i hi => ?_
  rw [Finset.mem_Icc] at hi
  have hle := hL.mono (Nat.sub_le i 1) hi.2
  refine mul_le_mul_of_nonneg_left (hδ i hi.1 hi.2) (sub_nonneg.2 ?_)
  exact hmono (hL.mem (by omega)) (hL.mem hi.2) hle

/-- C93: with enough levels the integrated absorption is as close to the true integral as one likes. -/
theorem C93_converges (hα : ContinuousOn α (Icc 0 L)) (hα0 : ∀ u ∈ Icc 0 L, 0 ≤ α u) (hε : 0 < ε) :
    ∃ δ > 0, ∀ n s ds tot xds, Levels n L s → Lengths n s ds → FinerThan n s δ →
      expInt z (n + 1) (fun i => α (s i)) ds 1 (n + 1) 1 = .ok (tot, xds) → |tot - pathOpacity α 0 L| ≤ ε := by
  obtain ⟨δ, hδ, H⟩ := swing_of_fine (f := α) (L := L) hα (ε := ε / (|L| + 1)) (by positivity)
  refine ⟨δ, hδ, fun n s ds tot xds hL hd hf h => ?_⟩
  have key := C93_total hL hd hα hα0 (H n s hL hf) h
  rw [one_mul, abs_one, one_mul, ← Finset.mul_sum] at key
  rw [sum_lengths hL] at key
  refine key.trans ?_
  rw [div_mul_eq_mul_div, div_le_iff₀ (by positivity)]
  have := le_abs_self L
  nlinarith

/-! ## C94 -/

/-- Black-body radiance along the path. -/
noncomputable def radianceAt (frq : ℝ) (T : ℝ → ℝ) (u : ℝ) : ℝ := tk2b (hvkOf frq) (T u)

/-- What arrives at the bottom of the path according to the radiative transfer equation: the cosmic background behind
the whole path, and the emission of the path. -/
noncomputable def trueDown (frq : ℝ) (α T : ℝ → ℝ) (L : ℝ) : ℝ :=
  tk2b (hvkOf frq) 2.728 * exp (-pathOpacity α 0 L) + downwelling α (radianceAt frq T) L

/-- What arrives at the top: the surface, which has the temperature of the bottom of the path and emissivity `es`, and
the emission of the path. -/
noncomputable def trueUp (es frq : ℝ) (α T : ℝ → ℝ) (L : ℝ) : ℝ :=
  es * tk2b (hvkOf frq) (T 0) * exp (-pathOpacity α 0 L) + upwelling α (radianceAt frq T) L

theorem radianceAt_continuousOn (hf : 0 < frq) (hT : ContinuousOn T (Icc 0 L)) (hT0 : ∀ u ∈ Icc 0 L, 0 < T u) :
    ContinuousOn (radianceAt frq T) (Icc 0 L) := fun u hu => by
  have := (tk2b_deriv (hvkOf_pos hf) (hT0 u hu)).continuousAt
  exact this.comp_continuousWithinAt (f := T) (hT u hu)

/-- C94: with the true opacity of every layer, seen from the ground: the radiance is off by at most the largest swing of
the black-body radiance within a layer, times the share of the path that is not transparent. -/
theorem C94_ground_layers (hf : 0 < frq) (hL : Levels n L s) (hα : ContinuousOn α (Icc 0 L))
    (hα0 : ∀ u ∈ Icc 0 L, 0 ≤ α u) (hT : ContinuousOn T (Icc 0 L)) (hT0 : ∀ u ∈ Icc 0 L, 0 < T u)
    (hω : Swing n s (radianceAt frq T) fun _ => ω) (hop : pathOpacity α 0 L < 125)
    (h : planck false es frq (n + 1) (fun i => T (s i)) (fun i => pathOpacity α (s (i - 1)) (s i)) = some out) :
    |out.boftotl - trueDown frq α T L| ≤ ω * (1 - exp (-pathOpacity α 0 L)) := by
  obtain ⟨hn, e1, -, -, -, e5, -, e7⟩ := planck_ground h
  rw [Nat.add_sub_cancel] at e5 e7
  have key := sky_exact_on hα (radianceAt_continuousOn hf hT hT0) hα0 hL hω
  have eo := exactLayer_below_on hα hL
  change opacityBelow (fun i => pathOpacity α (s (i - 1)) (s i)) n = _ at eo
  rw [eo] at e5
  rw [e7, (e5 hop).1, show cTcosmicbkg = (2.728 : ℝ) from rfl]
  unfold trueDown
  rw [add_sub_add_left_eq_sub]
  exact key

/-- C94: the same from above. -/
theorem C94_satellite_layers (hf : 0 < frq) (hL : Levels n L s) (hα : ContinuousOn α (Icc 0 L))
    (hα0 : ∀ u ∈ Icc 0 L, 0 ≤ α u) (hT : ContinuousOn T (Icc 0 L)) (hT0 : ∀ u ∈ Icc 0 L, 0 < T u)
    (hω : Swing n s (radianceAt frq T) fun _ => ω) (hop : pathOpacity α 0 L < 125)
    (h : planck true es frq (n + 1) (fun i => T (s i)) (fun i => pathOpacity α (s (i - 1)) (s i)) = some out) :
    |out.boftotl - trueUp es frq α T L| ≤ ω * (1 - exp (-pathOpacity α 0 L)) := by
  obtain ⟨hn, e1, -, -, -, e5, -, e7⟩ := planck_sat h
  rw [Nat.add_sub_cancel] at e5 e7
  have key := up_exact_on hα (radianceAt_continuousOn hf hT hT0) hα0 hL hω
  have eo := exactLayer_below_on hα hL
  change opacityBelow (fun i => pathOpacity α (s (i - 1)) (s i)) n = _ at eo
  rw [eo] at e5
  rw [e7, (e5 hop).1, hL.bottom]
  unfold trueUp
  rw [add_sub_add_left_eq_sub]
  exact key

/-- Several absorbers sampled at the levels, each integrated layer by layer: `a c` is the absorption coefficient of the
`c`-th along the path, `x c` what `exponential_integration` makes of its values at the levels. -/
structure Sampled {k : ℕ} (n : ℕ) (L : ℝ) (s ds : ℕ → ℝ) (a : Fin k → ℝ → ℝ) (x : Fin k → ℕ → ℝ) : Prop where
  levels : Levels n L s
  lengths : Lengths n s ds
  integrated : ∀ c, ∃ z tot, expInt z (n + 1) (fun i => a c (s i)) ds 1 (n + 1) 1 = .ok (tot, x c)

/-- Absorption coefficients along a path. -/
structure Absorbers {k : ℕ} (L : ℝ) (a : Fin k → ℝ → ℝ) : Prop where
  continuous : ∀ c, ContinuousOn (a c) (Icc 0 L)
  nonneg : ∀ c, ∀ u ∈ Icc 0 L, 0 ≤ a c u

/-- Absorption coefficient of all absorbers together. -/
noncomputable def total {k : ℕ} (a : Fin k → ℝ → ℝ) (u : ℝ) : ℝ := ∑ c, a c u

section

variable {k : ℕ} {a : Fin k → ℝ → ℝ} {x : Fin k → ℕ → ℝ} {ωa : Fin k → ℕ → ℝ}

theorem Absorbers.total_continuous (h : Absorbers L a) : ContinuousOn (total a) (Icc 0 L) :=
  continuousOn_finsetSum _ fun c _ => h.continuous c

theorem Absorbers.total_nonneg (h : Absorbers L a) : ∀ u ∈ Icc 0 L, 0 ≤ total a u :=
  fun u hu => Finset.sum_nonneg fun c _ => h.nonneg c u hu

theorem Sampled.nonneg (hs : Sampled n L s ds a x) (ha : Absorbers L a) (c : Fin k) {i : ℕ} (h1 : 1 ≤ i) (h2 : i ≤ n) :
    0 ≤ x c i := by
  obtain ⟨z, tot, h⟩ := hs.integrated c
  have hp : ∀ i < n + 1, 0 ≤ a c (s i) := fun i hi => ha.nonneg c _ (hs.levels.mem (by omega))
  have hd : 0 ≤ ds i := by
    rw [hs.lengths i h1 h2]; exact sub_nonneg.2 (hs.levels.mono (Nat.sub_le i 1) h2)
  have := (C14_between (by omega) hp h h1 (by omega) (by omega) hd).1
  exact (mul_nonneg (le_min (hp _ (by omega)) (hp i (by omega))) hd).trans this

/-- All absorbers: the opacity of a layer. -/
theorem Sampled.layer (hs : Sampled n L s ds a x) (ha : Absorbers L a) (hω : ∀ c, Swing n s (a c) (ωa c)) {i : ℕ}
    (h1 : 1 ≤ i) (h2 : i ≤ n) :
    |∑ c, x c i - pathOpacity (total a) (s (i - 1)) (s i)| ≤ (∑ c, ωa c i) * (s i - s (i - 1)) := by
  have hle := hs.levels.mono (Nat.sub_le i 1) h2
  have e : pathOpacity (total a) (s (i - 1)) (s i) = ∑ c, pathOpacity (a c) (s (i - 1)) (s i) :=
    intervalIntegral.integral_finsetSum fun c _ => ((ha.continuous c).mono (by
      rw [uIcc_of_le hle]
      exact Icc_subset_Icc (hs.levels.mem (by omega)).1 (hs.levels.mem h2).2)).intervalIntegrable
  rw [e, ← Finset.sum_sub_distrib, Finset.sum_mul]
  refine (Finset.abs_sum_le_sum_abs _ _).trans (Finset.sum_le_sum fun c _ => ?_)
  obtain ⟨z, tot, h⟩ := hs.integrated c
  exact C93_layer hs.levels hs.lengths (ha.continuous c) (ha.nonneg c) (hω c) h h1 h2

theorem Sampled.error (hs : Sampled n L s ds a x) (ha : Absorbers L a) (hω : ∀ c, Swing n s (a c) (ωa c)) :
    opacityError n (fun i => pathOpacity (total a) (s (i - 1)) (s i)) (fun i => ∑ c, x c i) ≤
      ∑ i ∈ Finset.Icc 1 n, (∑ c, ωa c i) * (s i - s (i - 1)) :=
  Finset.sum_le_sum fun i hi => by
    rw [Finset.mem_Icc] at hi
    exact hs.layer ha hω hi.1 hi.2

theorem Sampled.opacity (hs : Sampled n L s ds a x) (ha : Absorbers L a) (hω : ∀ c, Swing n s (a c) (ωa c)) :
    |opacityBelow (fun i => ∑ c, x c i) n - pathOpacity (total a) 0 L| ≤
      ∑ i ∈ Finset.Icc 1 n, (∑ c, ωa c i) * (s i - s (i - 1)) := by
  have e := exactLayer_below_on ha.total_continuous hs.levels
  rw [← e]
  unfold opacityBelow exactLayer
  rw [← Finset.sum_sub_distrib]
  exact (Finset.abs_sum_le_sum_abs _ _).trans (hs.error ha hω)

/-- **C94.** An atmosphere given by continuous functions along the path, sampled at levels, seen from the ground: the
radiance differs from the solution of the radiative transfer equation by at most the swing of the black-body radiance
within a layer, plus the range of radiances times the error of the opacities. -/
theorem C94_ground (hf : 0 < frq) (hs : Sampled n L s ds a x) (ha : Absorbers L a)
    (hT : ContinuousOn T (Icc 0 L)) (hT0 : ∀ u ∈ Icc 0 L, 2.728 ≤ T u ∧ T u ≤ M)
    (hω : Swing n s (radianceAt frq T) fun _ => ω) (hωa : ∀ c, Swing n s (a c) (ωa c))
    (hop : pathOpacity (total a) 0 L < 125) (hop' : opacityBelow (fun i => ∑ c, x c i) n < 125)
    (h : planck false es frq (n + 1) (fun i => T (s i)) (fun i => ∑ c, x c i) = some out) :
    |out.boftotl - trueDown frq (total a) T L| ≤ ω * (1 - exp (-pathOpacity (total a) 0 L)) +
      (tk2b out.hvk M - tk2b out.hvk 2.728) * ∑ i ∈ Finset.Icc 1 n, (∑ c, ωa c i) * (s i - s (i - 1)) := by
  obtain ⟨out', h'⟩ := planck_exists (s := false) (es := es) (frq := frq) (nl := n + 1) (t := fun i => T (s i))
    (τ := fun i => pathOpacity (total a) (s (i - 1)) (s i)) (by omega)
  have hTp : ∀ u ∈ Icc 0 L, 0 < T u := fun u hu => by linarith [(hT0 u hu).1]
  have k1 := C94_ground_layers hf hs.levels ha.total_continuous ha.total_nonneg hT hTp hω hop h'
  have eo := exactLayer_below_on ha.total_continuous hs.levels
  have k2 := C92_ground (M := M) hf (fun i hi => hT0 _ (hs.levels.mem (by omega)))
    (fun i h1 h2 => ⟨pathOpacity_nonneg (hs.levels.mono (Nat.sub_le i 1) (by omega)) fun u hu =>
        ha.total_nonneg u ⟨(hs.levels.mem (by omega : i - 1 ≤ n)).1.trans hu.1,
          hu.2.trans (hs.levels.mem (by omega : i ≤ n)).2⟩,
      Finset.sum_nonneg fun c _ => hs.nonneg ha c h1 (by omega)⟩)
    (by rw [Nat.add_sub_cancel]; exact eo ▸ hop) (by rw [Nat.add_sub_cancel]; exact hop') h' h
  rw [Nat.add_sub_cancel, planck_hvk h'] at k2
  rw [planck_hvk h]
  have hBM : tk2b (hvkOf frq) 2.728 ≤ tk2b (hvkOf frq) M := tk2b_mono (hvkOf_pos hf) (by norm_num)
    ((hT0 0 ⟨le_rfl, hs.levels.length⟩).1.trans (hT0 0 ⟨le_rfl, hs.levels.length⟩).2)
  have k3 := mul_le_mul_of_nonneg_left (hs.error ha hωa) (sub_nonneg.2 hBM)
  have := abs_sub_le out.boftotl out'.boftotl (trueDown frq (total a) T L)
  linarith

/-- C94: seen from above. -/
theorem C94_satellite (hf : 0 < frq) (hes : 0 ≤ es ∧ es ≤ 1) (hs : Sampled n L s ds a x) (ha : Absorbers L a)
    (hT : ContinuousOn T (Icc 0 L)) (hm : 0 < m) (hT0 : ∀ u ∈ Icc 0 L, m ≤ T u ∧ T u ≤ M)
    (hω : Swing n s (radianceAt frq T) fun _ => ω) (hωa : ∀ c, Swing n s (a c) (ωa c))
    (hop : pathOpacity (total a) 0 L < 125) (hop' : opacityBelow (fun i => ∑ c, x c i) n < 125)
    (h : planck true es frq (n + 1) (fun i => T (s i)) (fun i => ∑ c, x c i) = some out) :
    |out.boftotl - trueUp es frq (total a) T L| ≤ ω * (1 - exp (-pathOpacity (total a) 0 L)) +
      (tk2b out.hvk M - es * tk2b out.hvk m) * ∑ i ∈ Finset.Icc 1 n, (∑ c, ωa c i) * (s i - s (i - 1)) := by
  obtain ⟨out', h'⟩ := planck_exists (s := true) (es := es) (frq := frq) (nl := n + 1) (t := fun i => T (s i))
    (τ := fun i => pathOpacity (total a) (s (i - 1)) (s i)) (by omega)
  have hTp : ∀ u ∈ Icc 0 L, 0 < T u := fun u hu => hm.trans_le (hT0 u hu).1
  have k1 := C94_satellite_layers hf hs.levels ha.total_continuous ha.total_nonneg hT hTp hω hop h'
  have eo := exactLayer_below_on ha.total_continuous hs.levels
  have k2 := C92_satellite (M := M) hf hes hm (fun i hi => hT0 _ (hs.levels.mem (by omega)))
    (fun i h1 h2 => ⟨pathOpacity_nonneg (hs.levels.mono (Nat.sub_le i 1) (by omega)) fun u hu =>
        ha.total_nonneg u ⟨(hs.levels.mem (by omega : i - 1 ≤ n)).1.trans hu.1,
          hu.2.trans (hs.levels.mem (by omega : i ≤ n)).2⟩,
      Finset.sum_nonneg fun c _ => hs.nonneg ha c h1 (by omega)⟩)
    (by rw [Nat.add_sub_cancel]; exact eo ▸ hop) (by rw [Nat.add_sub_cancel]; exact hop') h' h
  rw [Nat.add_sub_cancel, planck_hvk h'] at k2
  rw [planck_hvk h]
  have hBM : es * tk2b (hvkOf frq) m ≤ tk2b (hvkOf frq) M :=
    (mul_le_of_le_one_left (tk2b_pos (hvkOf_pos hf) hm).le hes.2).trans (tk2b_mono (hvkOf_pos hf) hm
    ((hT0 0 ⟨le_rfl, hs.levels.length⟩).1.trans (hT0 0 ⟨le_rfl, hs.levels.length⟩).2))
  have k3 := mul_le_mul_of_nonneg_left (hs.error ha hωa) (sub_nonneg.2 hBM)
  have := abs_sub_le out.boftotl out'.boftotl (trueUp es frq (total a) T L)
  linarith

/-- Levels fine enough for everything at once. -/
theorem fine_enough (hf : 0 < frq) (ha : Absorbers L a) (hT : ContinuousOn T (Icc 0 L)) (hT0 : ∀ u ∈ Icc 0 L, 0 < T u)
    (hε : 0 < ε) : ∃ δ > 0, ∀ n s, Levels n L s → FinerThan n s δ →
      Swing n s (radianceAt frq T) (fun _ => ε) ∧ ∃ ωa : Fin k → ℕ → ℝ, (∀ c, Swing n s (a c) (ωa c)) ∧
        ∑ i ∈ Finset.Icc 1 n, (∑ c, ωa c i) * (s i - s (i - 1)) ≤ ε := by
  obtain ⟨δ0, hδ0, H0⟩ := swing_of_fine (radianceAt_continuousOn hf hT hT0) hε
  have hη : 0 < ε / ((k + 1) * (|L| + 1)) := by positivity
  choose δ hδ H using fun c => swing_of_fine (ha.continuous c) hη
  have hpos : 0 < Finset.univ.inf' Finset.univ_nonempty fun o : Option (Fin k) => o.elim δ0 δ := by
    rw [Finset.lt_inf'_iff]
    rintro (_ | c) _
    · exact hδ0
    · exact hδ c
  refine ⟨_, hpos, fun n s hL hfine => ?_⟩
  have hle (o : Option (Fin k)) : FinerThan n s (o.elim δ0 δ) := fun i h1 h2 =>
    (hfine i h1 h2).trans (Finset.inf'_le (fun o : Option (Fin k) => o.elim δ0 δ) (Finset.mem_univ o))
  refine ⟨H0 n s hL (hle none), fun _ _ => ε / ((k + 1) * (|L| + 1)), fun c => H c n s hL (hle (some c)), ?_⟩
  rw [← Finset.mul_sum, sum_lengths hL, Finset.sum_const, Finset.card_univ, Fintype.card_fin, nsmul_eq_mul]
  have h1 := le_abs_self L
  have h2 := hL.length
  rw [mul_div_assoc', div_mul_eq_mul_div, div_le_iff₀ (by positivity)]
  have h3 : (k : ℝ) * L ≤ (k + 1) * (|L| + 1) :=
    mul_le_mul (by linarith) (by linarith) h2 (by positivity)
  nlinarith

/-- C94: with enough levels the radiance at the ground is as close to the solution of the radiative transfer equation
as one likes. -/
theorem C94_ground_converges (hf : 0 < frq) (ha : Absorbers L a) (hT : ContinuousOn T (Icc 0 L))
    (hT0 : ∀ u ∈ Icc 0 L, 2.728 ≤ T u) (hop : pathOpacity (total a) 0 L < 125) (hε : 0 < ε) :
    ∃ δ > 0, ∀ n s ds x out, Sampled n L s ds a x → FinerThan n s δ →
      planck false es frq (n + 1) (fun i => T (s i)) (fun i => ∑ c, x c i) = some out →
      |out.boftotl - trueDown frq (total a) T L| ≤ ε := by
  obtain ⟨M, hM⟩ := (isCompact_Icc (a := (0 : ℝ)) (b := L)).bddAbove_image hT
  have hM' : ∀ u ∈ Icc 0 L, T u ≤ M := fun u hu => hM ⟨u, hu, rfl⟩
  have hTp : ∀ u ∈ Icc 0 L, 0 < T u := fun u hu => by linarith [hT0 u hu]
  generalize hR : |tk2b (hvkOf frq) M - tk2b (hvkOf frq) 2.728| = R
  have hR0 : 0 ≤ R := hR ▸ abs_nonneg _
  obtain ⟨δ, hδ, H⟩ := fine_enough (ε := min (ε / (1 + R)) ((125 - pathOpacity (total a) 0 L) / 2)) hf ha hT hTp
    (lt_min (by positivity) (by linarith))
  refine ⟨δ, hδ, fun n s ds x out hs hfine h => ?_⟩
  obtain ⟨hω, ωa, hωa, hsum⟩ := H n s hs.levels hfine
  have hop' : opacityBelow (fun i => ∑ c, x c i) n < 125 := by
    have := (abs_le.1 ((hs.opacity ha hωa).trans (hsum.trans (min_le_right _ _)))).2
    linarith
  have key := C94_ground hf hs ha hT (fun u hu => ⟨hT0 u hu, hM' u hu⟩) hω hωa hop hop' h
  rw [planck_hvk h] at key
  refine key.trans ?_
  have h1 : 0 ≤ pathOpacity (total a) 0 L := pathOpacity_nonneg hs.levels.length ha.total_nonneg
  have h2 := exp_pos (-pathOpacity (total a) 0 L)
  have h3 : 0 < min (ε / (1 + R)) ((125 - pathOpacity (total a) 0 L) / 2) := lt_min (by positivity) (by linarith)
  have h4 := (mul_le_mul_of_nonneg_left hsum hR0)
  have h5 := min_le_left (ε / (1 + R)) ((125 - pathOpacity (total a) 0 L) / 2)
  have h6 : ε / (1 + R) * (1 + R) = ε := div_mul_cancel₀ _ (by positivity)
  have h7 := mul_le_mul_of_nonneg_right h5 (by positivity : 0 ≤ 1 + R)
  have h8 : 0 ≤ ∑ i ∈ Finset.Icc 1 n, (∑ c, ωa c i) * (s i - s (i - 1)) :=
    (abs_nonneg _).trans (hs.opacity ha hωa)
  have h9 := mul_le_mul_of_nonneg_right (le_abs_self (tk2b (hvkOf frq) M - tk2b (hvkOf frq) 2.728)) h8
  rw [hR] at h9
  generalize min (ε / (1 + R)) ((125 - pathOpacity (total a) 0 L) / 2) = q at *
  nlinarith

/-- C94: the same at the top. -/
theorem C94_satellite_converges (hf : 0 < frq) (hes : 0 ≤ es ∧ es ≤ 1) (ha : Absorbers L a)
    (hT : ContinuousOn T (Icc 0 L)) (hm : 0 < m) (hT0 : ∀ u ∈ Icc 0 L, m ≤ T u)
    (hop : pathOpacity (total a) 0 L < 125) (hε : 0 < ε) :
    ∃ δ > 0, ∀ n s ds x out, Sampled n L s ds a x → FinerThan n s δ →
      planck true es frq (n + 1) (fun i => T (s i)) (fun i => ∑ c, x c i) = some out →
      |out.boftotl - trueUp es frq (total a) T L| ≤ ε := by
  obtain ⟨M, hM⟩ := (isCompact_Icc (a := (0 : ℝ)) (b := L)).bddAbove_image hT
  have hM' : ∀ u ∈ Icc 0 L, T u ≤ M := fun u hu => hM ⟨u, hu, rfl⟩
  have hTp : ∀ u ∈ Icc 0 L, 0 < T u := fun u hu => hm.trans_le (hT0 u hu)
  generalize hR : |tk2b (hvkOf frq) M - es * tk2b (hvkOf frq) m| = R
  have hR0 : 0 ≤ R := hR ▸ abs_nonneg _
  obtain ⟨δ, hδ, H⟩ := fine_enough (ε := min (ε / (1 + R)) ((125 - pathOpacity (total a) 0 L) / 2)) hf ha hT hTp
    (lt_min (by positivity) (by linarith))
  refine ⟨δ, hδ, fun n s ds x out hs hfine h => ?_⟩
  obtain ⟨hω, ωa, hωa, hsum⟩ := H n s hs.levels hfine
  have hop' : opacityBelow (fun i => ∑ c, x c i) n < 125 := by
    have := (abs_le.1 ((hs.opacity ha hωa).trans (hsum.trans (min_le_right _ _)))).2
    linarith
  have key := C94_satellite hf hes hs ha hT hm (fun u hu => ⟨hT0 u hu, hM' u hu⟩) hω hωa hop hop' h
  rw [planck_hvk h] at key
  refine key.trans ?_
  have h1 : 0 ≤ pathOpacity (total a) 0 L := pathOpacity_nonneg hs.levels.length ha.total_nonneg
  have h2 := exp_pos (-pathOpacity (total a) 0 L)
  have h3 : 0 < min (ε / (1 + R)) ((125 - pathOpacity (total a) 0 L) / 2) := lt_min (by positivity) (by linarith)
  have h4 := (mul_le_mul_of_nonneg_left hsum hR0)
  have h5 := min_le_left (ε / (1 + R)) ((125 - pathOpacity (total a) 0 L) / 2)
  have h6 : ε / (1 + R) * (1 + R) = ε := div_mul_cancel₀ _ (by positivity)
  have h7 := mul_le_mul_of_nonneg_right h5 (by positivity : 0 ≤ 1 + R)
  have h8 : 0 ≤ ∑ i ∈ Finset.Icc 1 n, (∑ c, ωa c i) * (s i - s (i - 1)) :=
    (abs_nonneg _).trans (hs.opacity ha hωa)
  have h9 := mul_le_mul_of_nonneg_right (le_abs_self (tk2b (hvkOf frq) M - es * tk2b (hvkOf frq) m)) h8
  rw [hR] at h9
  generalize min (ε / (1 + R)) ((125 - pathOpacity (total a) 0 L) / 2) = q at *
  nlinarith

/-- The error of a radiance as an error of brightness temperature. -/
theorem brightness_limit {hvk b : ℝ} (hh : 0 < hvk) (hm : 0 < m) (hb : tk2b hvk m ≤ b) (hε : 0 < ε) :
    ∃ T, 0 < T ∧ bright hvk b = some T ∧ ∃ η > 0, ∀ b', |b' - b| ≤ η → ∃ T', bright hvk b' = some T' ∧ |T' - T| ≤ ε := by
  have hp := tk2b_pos hh hm
  obtain ⟨T, hT, rfl⟩ := exists_tk2b hh (hp.trans_le hb)
  have hm2 : 0 < m / 2 := by positivity
  have hlt : tk2b hvk (m / 2) < tk2b hvk m := tk2b_strictMono hh hm2 (by linarith)
  have hw : 0 < planckW (hvk / (m / 2)) := planckW_pos (by positivity)
  refine ⟨T, hT, bright_tk2b hh hT, min (tk2b hvk m - tk2b hvk (m / 2)) (ε * planckW (hvk / (m / 2)) / hvk),
    lt_min (by linarith) (by positivity), fun b' hb' => ?_⟩
  have h1 := (abs_le.1 (hb'.trans (min_le_left _ _))).1
  obtain ⟨T1, T', e1, e2, e3⟩ := radiance_error hh hm2 (hlt.le.trans hb) (by linarith)
    (hb'.trans (min_le_right _ _))
  rw [bright_tk2b hh hT] at e1
  cases e1
  refine ⟨T', e2, e3.trans (le_of_eq ?_)⟩
  generalize planckW (hvk / (m / 2)) = w at hw
  field_simp

/-- C94: brightness temperatures at the ground converge to the brightness temperature of the solution. -/
theorem C94_ground_brightness (hf : 0 < frq) (h0 : 0 ≤ L) (ha : Absorbers L a) (hT : ContinuousOn T (Icc 0 L))
    (hT0 : ∀ u ∈ Icc 0 L, 2.728 ≤ T u) (hop : pathOpacity (total a) 0 L < 125) :
    ∃ Tb, bright (hvkOf frq) (trueDown frq (total a) T L) = some Tb ∧ 2.728 ≤ Tb ∧ ∀ ε > 0, ∃ δ > 0,
      ∀ n s ds x out, Sampled n L s ds a x → FinerThan n s δ →
        planck false es frq (n + 1) (fun i => T (s i)) (fun i => ∑ c, x c i) = some out →
        ∃ Tb', bright out.hvk out.boftotl = some Tb' ∧ |Tb' - Tb| ≤ ε := by
  have hm : (0 : ℝ) < 2.728 := by norm_num
  have hh := hvkOf_pos hf
  have hTp : ∀ u ∈ Icc 0 L, 0 < T u := fun u hu => hm.trans_le (hT0 u hu)
  have hlow : tk2b (hvkOf frq) 2.728 ≤ trueDown frq (total a) T L := by
    have := downwelling_ge h0 ha.total_continuous (radianceAt_continuousOn hf hT hTp) ha.total_nonneg
      (lo := tk2b (hvkOf frq) 2.728) fun u hu => tk2b_mono hh hm (hT0 u hu)
    unfold trueDown
    linarith
  obtain ⟨Tb, hTb, hb, -⟩ := brightness_limit (ε := 1) hh hm hlow one_pos
  refine ⟨Tb, hb, ?_, fun ε hε => ?_⟩
  · obtain ⟨T1, hT1, e⟩ := exists_tk2b hh ((tk2b_pos hh hm).trans_le hlow)
    rw [← e, bright_tk2b hh hT1] at hb
    cases hb
    by_contra hc
    push Not at hc
    linarith [tk2b_strictMono hh hTb hc]
  · obtain ⟨Tb1, -, hb1, η, hη, H⟩ := brightness_limit (ε := ε) hh hm hlow hε
    rw [hb] at hb1
    cases hb1
    obtain ⟨δ, hδ, H2⟩ := C94_ground_converges (es := es) hf ha hT hT0 hop hη
    refine ⟨δ, hδ, fun n s ds x out hs hfine h => ?_⟩
    rw [planck_hvk h]
    exact H _ (H2 n s ds x out hs hfine h)

/-- C94: brightness temperatures from above, over a surface that emits. -/
theorem C94_satellite_brightness (hf : 0 < frq) (hes : 0 < es ∧ es ≤ 1) (h0 : 0 ≤ L) (ha : Absorbers L a)
    (hT : ContinuousOn T (Icc 0 L)) (hm : 0 < m) (hT0 : ∀ u ∈ Icc 0 L, m ≤ T u)
    (hop : pathOpacity (total a) 0 L < 125) :
    ∃ Tb, bright (hvkOf frq) (trueUp es frq (total a) T L) = some Tb ∧ 0 < Tb ∧ ∀ ε > 0, ∃ δ > 0,
      ∀ n s ds x out, Sampled n L s ds a x → FinerThan n s δ →
        planck true es frq (n + 1) (fun i => T (s i)) (fun i => ∑ c, x c i) = some out →
        ∃ Tb', bright out.hvk out.boftotl = some Tb' ∧ |Tb' - Tb| ≤ ε := by
  have hh := hvkOf_pos hf
  have hTp : ∀ u ∈ Icc 0 L, 0 < T u := fun u hu => hm.trans_le (hT0 u hu)
  have hpm := tk2b_pos hh hm
  obtain ⟨m', hm', em⟩ := exists_tk2b hh (mul_pos hes.1 hpm)
  have hlow : tk2b (hvkOf frq) m' ≤ trueUp es frq (total a) T L := by
    have := upwelling_ge h0 ha.total_continuous (radianceAt_continuousOn hf hT hTp) ha.total_nonneg
      (lo := es * tk2b (hvkOf frq) m) fun u hu =>
        (mul_le_of_le_one_left hpm.le hes.2).trans (tk2b_mono hh hm (hT0 u hu))
    have h2 := mul_le_mul_of_nonneg_left (tk2b_mono hh hm (hT0 0 ⟨le_rfl, h0⟩)) hes.1.le
    have h3 := mul_le_mul_of_nonneg_right h2 (exp_pos (-pathOpacity (total a) 0 L)).le
    rw [em]
    unfold trueUp
    linarith
  obtain ⟨Tb, hTb, hb, -⟩ := brightness_limit (ε := 1) hh hm' hlow one_pos
  refine ⟨Tb, hb, hTb, fun ε hε => ?_⟩
  obtain ⟨Tb1, -, hb1, η, hη, H⟩ := brightness_limit (ε := ε) hh hm' hlow hε
  rw [hb] at hb1
  cases hb1
  obtain ⟨δ, hδ, H2⟩ := C94_satellite_converges hf ⟨hes.1.le, hes.2⟩ ha hT hm hT0 hop hη
  refine ⟨δ, hδ, fun n s ds x out hs hfine h => ?_⟩
  rw [planck_hvk h]
  exact H _ (H2 n s ds x out hs hfine h)

end

/-! ## A case -/

/-- Levels every kilometre up to 10 km. -/
theorem tenKm : Levels 10 10 fun i => (i : ℝ) := ⟨by norm_num, by norm_num, fun i _ => by push_cast; linarith⟩

theorem tenKm_lengths : Lengths 10 (fun i => (i : ℝ)) fun _ => 1 := fun i h1 _ => by
  simp only; rw [Nat.cast_sub h1]; norm_num

theorem tenKm_fine : FinerThan 10 (fun i => (i : ℝ)) 1 := fun i h1 _ => by
  simp only; rw [Nat.cast_sub h1]; norm_num

theorem fallingOpacity : pathOpacity (fun u => 0.2 - 0.01 * u) 0 10 = 1.5 := by
  unfold pathOpacity
  have h1 : IntervalIntegrable (fun _ : ℝ => (0.2 : ℝ)) MeasureTheory.volume 0 10 :=
    continuous_const.intervalIntegrable _ _
  have h2 : IntervalIntegrable (fun u : ℝ => 0.01 * u) MeasureTheory.volume 0 10 :=
    Continuous.intervalIntegrable (by fun_prop) _ _
  have := intervalIntegral.integral_sub h1 h2
  rw [this, intervalIntegral.integral_const, intervalIntegral.integral_const_mul, integral_id]
  norm_num

/-- Absorption falling from 0.2 to 0.1 Np/km over 10 km: ten layers give the opacity 1.5 Np within 0.1. -/
example : ∃ tot xds, expInt true (10 + 1) (fun i => 0.2 - 0.01 * (i : ℝ)) (fun _ => 1) 1 (10 + 1) 1 = .ok (tot, xds) ∧
    pathOpacity (fun u => 0.2 - 0.01 * u) 0 10 = 1.5 ∧ |tot - 1.5| ≤ 0.1 := by
  obtain ⟨⟨tot, xds⟩, h⟩ := C15_total (z := true) (nl := 10 + 1) (ibeg := 1) (x := fun i => 0.2 - 0.01 * (i : ℝ))
    (ds := fun _ => 1) (factor := 1) (by norm_num)
  have := C93_falling (α := fun u => 0.2 - 0.01 * u) (δ := 1) tenKm tenKm_lengths
    (by fun_prop) (fun u hu => by linarith [hu.2]) (fun u _ v _ huv => by simp only; linarith) tenKm_fine h
  rw [fallingOpacity] at this
  exact ⟨tot, xds, h, fallingOpacity, by norm_num at this ⊢; linarith⟩

/-- The same air with temperature falling by 6 K/km: the hypotheses of C94 hold, the ten layers of 1 km are a sample,
and with finer levels the simulation comes within 0.1 K. -/
example : ∃ (a : Fin 1 → ℝ → ℝ) (x : Fin 1 → ℕ → ℝ), Sampled 10 10 (fun i => (i : ℝ)) (fun _ => 1) a x ∧
    pathOpacity (total a) 0 10 < 125 ∧ ∃ Tb, ∃ δ > 0,
      ∀ n s ds x out, Sampled n 10 s ds a x → FinerThan n s δ →
        planck false 1 22.235 (n + 1) (fun i => 290 - 6 * s i) (fun i => ∑ c, x c i) = some out →
        ∃ Tb', bright out.hvk out.boftotl = some Tb' ∧ |Tb' - Tb| ≤ 0.1 := by
  obtain ⟨⟨tot, xds⟩, h⟩ := C15_total (z := true) (nl := 10 + 1) (ibeg := 1) (x := fun i => 0.2 - 0.01 * (i : ℝ))
    (ds := fun _ => 1) (factor := 1) (by norm_num)
  have ha : Absorbers 10 fun (_ : Fin 1) (u : ℝ) => 0.2 - 0.01 * u :=
    ⟨fun _ => by fun_prop, fun _ u hu => by linarith [hu.2]⟩
  have hp : pathOpacity (total fun (_ : Fin 1) (u : ℝ) => 0.2 - 0.01 * u) 0 10 < 125 := by
    unfold pathOpacity total
    simp only [Finset.univ_unique, Finset.sum_const, Finset.card_singleton, one_smul]
    exact lt_of_eq_of_lt fallingOpacity (by norm_num)
  obtain ⟨Tb, -, -, H⟩ := C94_ground_brightness (es := 1) (frq := 22.235) (T := fun u => 290 - 6 * u) (by norm_num)
    (by norm_num) ha (by fun_prop) (fun u hu => by linarith [hu.2]) hp
  exact ⟨_, fun _ => xds, ⟨tenKm, tenKm_lengths, fun _ => ⟨true, tot, h⟩⟩, hp, Tb, H 0.1 (by norm_num)⟩

end Verif.Props
