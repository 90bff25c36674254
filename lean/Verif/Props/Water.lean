import Verif.Lemmas.WaterSum

/-!
# Water vapour absorption (C35)
-/

namespace Verif.Props

open Verif.Model Verif.Py Verif.Lemmas Verif.Spec

/-- C35: one line contributes, for each of its two resonances, the Lorentz profile minus its value 750 GHz off the
centre, and nothing where that is negative; so the cut-off makes no jump and it does not matter whether the cut-off
itself is included. -/
theorem C35_shape (closed : Bool) (f fl shift w s : ℝ) (hw : 0 < w) (hfl : fl ≠ 0) :
    plainLine closed f fl shift w s = some (s * (max 0 (lorentz w (f - fl - shift) - lorentz w 750)
      + max 0 (lorentz w (f + fl + shift) - lorentz w 750)) * (f / fl) ^ 2) := by
  exact plainLine_eq closed f fl shift w s hw hfl

example : plainLine true 23.8 22.235 0 3 1 = some (1 * (max 0 (lorentz 3 (23.8 - 22.235 - 0) - lorentz 3 750)
    + max 0 (lorentz 3 (23.8 + 22.235 + 0) - lorentz 3 750)) * (23.8 / 22.235) ^ 2) :=
  C35_shape _ _ _ _ _ _ (by norm_num) (by norm_num)

/-- The same for a line of the speed-dependent models whose speed-dependence is zero, or outside ten half-widths. -/
theorem C35_shape_sd (f fl shift w w2 d2 s : ℝ) (hw : 0 < w) (hfl : fl ≠ 0)
    (h : w2 ≤ 0 ∨ 10 * w ≤ |f - fl - shift|) :
    sdLine f fl shift w w2 d2 s = some (s * (max 0 (lorentz w (f - fl - shift) - lorentz w 750)
      + max 0 (lorentz w (f + fl + shift) - lorentz w 750)) * (f / fl) ^ 2) := by
  exact sdLine_eq f fl shift w w2 d2 s hw hfl h

example : sdLine 40 22.235 0 1 0.2 0 1 = some (1 * (max 0 (lorentz 1 (40 - 22.235 - 0) - lorentz 1 750)
    + max 0 (lorentz 1 (40 + 22.235 + 0) - lorentz 1 750)) * (40 / 22.235) ^ 2) :=
  C35_shape_sd _ _ _ _ _ _ _ (by norm_num) (by norm_num)
    (Or.inr (by rw [abs_of_nonneg (by norm_num)]; norm_num))


/-- C35: with the line list of any of the models without speed dependence, loaded on top of anything, moist air has a
finite line absorption that is not negative and a positive continuum, at every temperature, pressure, humidity and
frequency. -/
theorem C35_nonneg {m : String} (hm : m ∈ ["R98", "R03", "R16", "R17", "R18", "R19", "R20"]) {F : LineList}
    (hF : waterFile m = some F) (old : LineList) {p vx e f : ℝ} (hp : 0 ≤ p) (hv : 0 < vx) (he : 0 < e) (hf : 0 < f) :
    ∃ n c, h2oAbsorption m (reloadLL F old) p vx e f = .ok (some (n, c)) ∧ 0 ≤ n ∧ 0 < c :=
  h2o_plain hm hF old hp hv he hf

example : ∃ F, waterFile "R98" = some F ∧ ∃ n c, h2oAbsorption "R98" (reloadLL F fun _ => none) 100 1 1 22.235 =
    .ok (some (n, c)) ∧ 0 ≤ n ∧ 0 < c :=
  ⟨_, rfl, C35_nonneg (by decide) rfl _ (by norm_num) (by norm_num) (by norm_num) (by norm_num)⟩

/-- C35: every shipped model name has a line list. -/
theorem C35_names (m : String) : (waterFile m).isSome ↔ m ∈ ["R98", "R03", "R16", "R17", "R18", "R19", "R19SD", "R20",
    "R20SD", "R21SD", "R22SD", "R23SD", "R24", "MWL24"] := by
  unfold waterFile
  rw [Option.isSome_map]
  have : waterGroups.map (·.1) = ["R98", "R03", "R16", "R17", "R18", "R19", "R19SD", "R20", "R20SD", "R21SD", "R22SD",
    "R23SD", "R24", "MWL24"] := rfl
  rw [← this, List.lookup_isSome_iff]
  simp only [List.mem_map]
  constructor
  · rintro ⟨p, hp, h⟩
    exact ⟨p, hp, (beq_iff_eq.1 h).symm⟩
  · rintro ⟨p, hp, h⟩
    exact ⟨p, hp, beq_iff_eq.2 h.symm⟩

/-- C35: dry air does not absorb, whatever the model. -/
theorem C35_dry (m : String) (ll : LineList) (p f : ℝ) {vx : ℝ} (hv : 0 < vx) :
    h2oAbsorption m ll p vx 0 f = .ok (some (0, 0)) := by
  unfold h2oAbsorption
  rw [if_pos hv]
  simp only
  rw [if_pos ((waterAir_rho_zero hv).2 rfl)]

example : h2oAbsorption "R24" (fun _ => none) 100 1 0 183 = .ok (some (0, 0)) := C35_dry _ _ _ _ one_pos

/-- C39: what the process had loaded before does not matter. -/
theorem C39_water {m : String} {F : LineList} (hF : waterFile m = some F) (old old' : LineList) (p vx e f : ℝ) :
    h2oAbsorption m (reloadLL F old) p vx e f = h2oAbsorption m (reloadLL F old') p vx e f := by
  refine h2o_congr (fun a ha => ?_) p vx e f
  obtain ⟨v, h1, h2⟩ := file_reads hF old a ha
  obtain ⟨v', h1', h2'⟩ := file_reads hF old' a ha
  rw [attr_some h2, attr_some h2']
  rw [h1, Option.some_inj] at h1'
  rw [h1']

example : ∃ F, waterFile "R20SD" = some F ∧ ∃ G, waterFile "R98" = some G ∧
    h2oAbsorption "R20SD" (reloadLL F G) 100 1 1 183 = h2oAbsorption "R20SD" (reloadLL F fun _ => none) 100 1 1 183 :=
  ⟨_, rfl, _, rfl, C39_water rfl _ _ _ _ _ _⟩

end Verif.Props
