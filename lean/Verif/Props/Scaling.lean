import Verif.Lemmas.Refine
import Verif.Props.Radiance

/-!
# C85: scaling of temperatures and frequency, splitting of isothermal layers
-/

namespace Verif.Props

open Verif.Py Verif.Spec Verif.Model Real

variable {frq es es' : ℝ} {nl k : ℕ} {t t' τ τ' : ℕ → ℝ} {out out' : PlanckOut} {c a b : ℝ}

theorem tk2b_scale (hc : c ≠ 0) (T : ℝ) : tk2b (hvkOf (c * frq)) (c * T) = tk2b (hvkOf frq) T := by
  have : hvkOf (c * frq) = c * hvkOf frq := by unfold hvkOf; ring
  unfold tk2b
  rw [this, mul_div_mul_left _ _ hc]

theorem bright_scale (x : ℝ) : bright (hvkOf (c * frq)) x = (bright (hvkOf frq) x).map (c * ·) := by
  have : hvkOf (c * frq) = c * hvkOf frq := by unfold hvkOf; ring
  unfold bright
  split
  · cases npLog (1.0 + 1.0 / x) with
    | none => rfl
    | some l =>
      simp only [Option.bind_some, this]
      unfold npDiv
      split
      · rfl
      · simp only [Option.map_some, Option.some.injEq]; ring
  · simp

/-- **C85.** Seen from space, only the ratio of frequency to temperature matters: with the same layer opacities and
emissivity, a frequency and temperatures `c` times as large give every radiance unchanged and every brightness
temperature multiplied by `c`. -/
theorem C85_satellite (hc : c ≠ 0) (h : planck true es frq nl t τ = some out)
    (h' : planck true es (c * frq) nl (fun i => c * t i) τ = some out') :
    out'.boftotl = out.boftotl ∧ out'.boftmr = out.boftmr ∧ (∀ i < nl, out'.boftatm i = out.boftatm i) ∧
    ∀ x, bright out'.hvk x = (bright out.hvk x).map (c * ·) := by
  obtain ⟨hn, e1, -, -, e4, e5, e6, e7⟩ := planck_sat h
  obtain ⟨-, f1, -, -, f4, f5, f6, f7⟩ := planck_sat h'
  simp only [tk2b_scale hc] at f4 f5 f6 f7
  have hb : out'.bakgrnd = out.bakgrnd ∧ out'.boftmr = out.boftmr := by
    rcases lt_or_ge (opacityBelow τ (nl - 1)) 125 with hop | hop
    · rw [(e5 hop).1, (f5 hop).1, (e5 hop).2, (f5 hop).2]; exact ⟨rfl, rfl⟩
    · rw [(e6 hop).1, (f6 hop).1, (e6 hop).2, (f6 hop).2]; exact ⟨rfl, rfl⟩
  refine ⟨by rw [e7, f7, hb.1], hb.2, fun i hi => by rw [e4 i hi, f4 i hi], fun x => ?_⟩
  rw [e1, f1, bright_scale]

/-- Looking up, the emission of the atmosphere scales in the same way, but the cosmic background does not: raising
frequency and temperatures by the same factor lowers the total radiance as long as the background is seen, and
leaves it unchanged behind 125 Np. -/
theorem C85_ground (hf : 0 < frq) (hc : 1 < c) (h : planck false es frq nl t τ = some out)
    (h' : planck false es' (c * frq) nl (fun i => c * t i) τ = some out') :
    out'.boftmr = out.boftmr ∧ (∀ i < nl, out'.boftatm i = out.boftatm i) ∧
    (opacityBelow τ (nl - 1) < 125 → out'.boftotl < out.boftotl) ∧
    (125 ≤ opacityBelow τ (nl - 1) → out'.boftotl = out.boftotl) := by
  obtain ⟨hn, e1, -, -, e4, e5, e6, e7⟩ := planck_ground h
  obtain ⟨-, f1, -, -, f4, f5, f6, f7⟩ := planck_ground h'
  have hc0 : c ≠ 0 := by linarith
  simp only [tk2b_scale hc0] at f4 f5 f6 f7
  refine ⟨?_, fun i hi => by rw [e4 i hi, f4 i hi], fun hop => ?_, fun hop => ?_⟩
  · rcases lt_or_ge (opacityBelow τ (nl - 1)) 125 with hop | hop
    · rw [(e5 hop).2, (f5 hop).2]
    · rw [(e6 hop).2, (f6 hop).2]
  · rw [e7, f7, (e5 hop).1, (f5 hop).1]
    have hT : (0 : ℝ) < cTcosmicbkg := by norm_num [cTcosmicbkg]
    have : tk2b (hvkOf (c * frq)) cTcosmicbkg < tk2b (hvkOf frq) cTcosmicbkg :=
      C02_radiance_frequency hf (by nlinarith) hT
    have := mul_lt_mul_of_pos_right this (exp_pos (-opacityBelow τ (nl - 1)))
    linarith
  · rw [e7, f7, (e6 hop).1, (f6 hop).1]

/-- **C85.** An isothermal layer may be split into two layers whose opacities add up to that of the layer: total
radiance, background and mean radiating radiance stay the same, looking up and looking down.  The refinement of the
grid inside isothermal layers is not observable. -/
theorem C85_split {s : Bool} (hk : k + 1 < nl) (hiso : t (k + 1) = t k) (hab : a + b = τ (k + 1))
    (ht : ∀ i, t' i = if i ≤ k then t i else t (i - 1))
    (hτ : ∀ i, τ' i = if i ≤ k then τ i else if i = k + 1 then a else if i = k + 2 then b else τ (i - 1))
    (h : planck s es frq nl t τ = some out) (h' : planck s es frq (nl + 1) t' τ' = some out') :
    out'.boftotl = out.boftotl ∧ out'.bakgrnd = out.bakgrnd ∧ out'.boftmr = out.boftmr := by
  have hB : ∀ i, tk2b (hvkOf frq) (t' i) = if i ≤ k then tk2b (hvkOf frq) (t i)
      else tk2b (hvkOf frq) (t (i - 1)) := fun i => by rw [ht]; split <;> rfl
  have hn1 : nl - 1 + 1 = nl := by omega
  have hiso' : tk2b (hvkOf frq) (t (k + 1)) = tk2b (hvkOf frq) (t k) := by rw [hiso]
  have ho := splitLayer_sky (B := fun i => tk2b (hvkOf frq) (t i))
    (B' := fun i => tk2b (hvkOf frq) (t' i)) hiso' hab hB hτ (n := nl - 1) (by omega)
  have hup := splitLayer_up (B := fun i => tk2b (hvkOf frq) (t i))
    (B' := fun i => tk2b (hvkOf frq) (t' i)) hiso' hab hB hτ (n := nl - 1) (by omega)
  rw [hn1] at ho hup
  cases s
  · obtain ⟨hn, e1, -, -, e4, e5, e6, e7⟩ := planck_ground h
    obtain ⟨-, f1, -, -, f4, f5, f6, f7⟩ := planck_ground h'
    simp only [Nat.add_sub_cancel] at f5 f6 f7
    rw [ho.1, ho.2] at f5 f6
    rw [ho.2] at f7
    have hb : out'.bakgrnd = out.bakgrnd ∧ out'.boftmr = out.boftmr := by
      rcases lt_or_ge (opacityBelow τ (nl - 1)) 125 with hop | hop
      · rw [(e5 hop).1, (f5 hop).1, (e5 hop).2, (f5 hop).2]; exact ⟨rfl, rfl⟩
      · rw [(e6 hop).1, (f6 hop).1, (e6 hop).2, (f6 hop).2]; exact ⟨rfl, rfl⟩
    exact ⟨by rw [e7, f7, hb.1], hb⟩
  · obtain ⟨hn, e1, -, -, e4, e5, e6, e7⟩ := planck_sat h
    obtain ⟨-, f1, -, -, f4, f5, f6, f7⟩ := planck_sat h'
    simp only [Nat.add_sub_cancel] at f5 f6 f7
    rw [ho.1, hup] at f5 f6
    rw [hup] at f7
    have ht0 : t' 0 = t 0 := by rw [ht]; simp
    have hb : out'.bakgrnd = out.bakgrnd ∧ out'.boftmr = out.boftmr := by
      rcases lt_or_ge (opacityBelow τ (nl - 1)) 125 with hop | hop
      · rw [(e5 hop).1, (f5 hop).1, (e5 hop).2, (f5 hop).2, ht0]; exact ⟨rfl, rfl⟩
      · rw [(e6 hop).1, (f6 hop).1, (e6 hop).2, (f6 hop).2]; exact ⟨rfl, rfl⟩
    exact ⟨by rw [e7, f7, hb.1], hb⟩

/-- Isothermality is needed: splitting the only layer of a two-level profile in half, with the new level taking the
temperature of the lower one, brightens the downwelling radiance. -/
theorem C85_split_refuted {T0 T1 : ℝ} (hf : 0 < frq) (h1 : 0 < T1) (h01 : T1 < T0) {d : ℝ} (hd : 0 < d)
    (h125 : 2 * d < 125)
    (h : planck false es frq 2 (fun i => if i = 0 then T0 else T1) (fun _ => 2 * d) = some out)
    (h' : planck false es' frq 3 (fun i => if i ≤ 1 then T0 else T1) (fun _ => d) = some out') :
    out.boftotl < out'.boftotl := by
  obtain ⟨-, -, -, -, -, e5, -, e7⟩ := planck_ground h
  obtain ⟨-, -, -, -, -, f5, -, f7⟩ := planck_ground h'
  have o1 : opacityBelow (fun _ => 2 * d) (2 - 1) = 2 * d := by
    rw [show 2 - 1 = 0 + 1 by rfl, opacityBelow_succ, opacityBelow_zero, zero_add]
  have o2 : opacityBelow (fun _ => d) (3 - 1) = 2 * d := by
    rw [show 3 - 1 = 0 + 1 + 1 by rfl, opacityBelow_succ, opacityBelow_succ, opacityBelow_zero]; ring
  rw [o1] at e5
  rw [o2] at f5
  rw [e7, f7, (e5 h125).1, (f5 h125).1]
  rw [show (2 - 1 : ℕ) = 0 + 1 by rfl, show (3 - 1 : ℕ) = 0 + 1 + 1 by rfl, skyRadiance_succ, skyRadiance_succ,
    skyRadiance_succ]
  simp only [skyRadiance_zero, transDown_succ, transDown_zero, zero_add, one_mul, if_true, Nat.one_ne_zero, if_false,
    Nat.reduceAdd, Nat.reduceLeDiff, zero_le, le_refl, layerSource_const, add_lt_add_iff_left]
  have hB := tk2b_strictMono (hvkOf_pos hf) h1 h01
  set B0 := tk2b (hvkOf frq) T0
  set B1 := tk2b (hvkOf frq) T1
  have hx : exp (-(2 * d)) = exp (-d) * exp (-d) := by rw [← exp_add]; ring_nf
  have x0 := exp_pos (-d)
  have x1 : exp (-d) < 1 := Real.exp_lt_one_iff.2 (by linarith)
  unfold layerSource
  rw [hx]
  set x := exp (-d)
  have p1 : 0 < 1 + x := by linarith
  have p2 : 0 < 1 + x * x := by positivity
  have key : B0 * (1 - x) + (B0 + B1 * x) / (1 + x) * (x - x * x) - (B0 + B1 * (x * x)) / (1 + x * x) * (1 - x * x) =
      (B0 - B1) * (2 * x * x * x * (1 - x) / ((1 + x) * (1 + x * x))) := by
    field_simp
    ring
  have : 0 < (B0 - B1) * (2 * x * x * x * (1 - x) / ((1 + x) * (1 + x * x))) := by
    have : 0 < 1 - x := by linarith
    have : 0 < B0 - B1 := by linarith
    positivity
  linarith

/-- A tropopause layer of opacity 0.3 split into 0.1 and 0.2. -/
example {s : Bool} : ∃ out out', planck s 1 60 3 (fun i => if i = 0 then 300 else 220) (fun _ => 0.3) = some out ∧
    planck s 1 60 4 (fun i => if i ≤ 1 then (if i = 0 then 300 else 220) else if i - 1 = 0 then 300 else 220)
      (fun i => if i ≤ 1 then 0.3 else if i = 1 + 1 then 0.1 else if i = 1 + 2 then 0.2 else 0.3) = some out' ∧
    out'.boftotl = out.boftotl := by
  obtain ⟨out, h⟩ := planck_exists (s := s) (es := 1) (frq := 60)
    (t := fun i => if i = 0 then 300 else 220) (τ := fun _ => 0.3) (show (3:ℕ) ≠ 0 by decide)
  obtain ⟨out', h'⟩ := planck_exists (s := s) (es := 1) (frq := 60)
    (t := fun i => if i ≤ 1 then (if i = 0 then 300 else 220) else if i - 1 = 0 then 300 else 220)
    (τ := fun i => if i ≤ 1 then 0.3 else if i = 1 + 1 then 0.1 else if i = 1 + 2 then 0.2 else 0.3)
    (show (4:ℕ) ≠ 0 by decide)
  exact ⟨out, out', h, h', (C85_split (k := 1) (by decide) (by simp) (by norm_num) (fun _ => rfl) (fun _ => rfl)
    h h').1⟩

/-- Doubling a 60 GHz scene: 300 K at 60 GHz looks like 600 K at 120 GHz, from space. -/
example : ∃ out out', planck true 0.9 60 3 (fun i => 300 - i) (fun i => i) = some out ∧
    planck true 0.9 (2 * 60) 3 (fun i => 2 * (300 - i)) (fun i => i) = some out' ∧
    bright out'.hvk out'.boftotl = (bright out.hvk out.boftotl).map (2 * ·) := by
  obtain ⟨out, h⟩ := planck_exists (s := true) (es := 0.9) (frq := 60)
    (t := fun i => 300 - i) (τ := fun i => i) (show (3:ℕ) ≠ 0 by decide)
  obtain ⟨out', h'⟩ := planck_exists (s := true) (es := 0.9) (frq := 2 * 60)
    (t := fun i => 2 * (300 - (i : ℝ))) (τ := fun i => i) (show (3:ℕ) ≠ 0 by decide)
  obtain ⟨h1, -, -, h4⟩ := C85_satellite two_ne_zero h h'
  exact ⟨out, out', h, h', by rw [h1, h4]⟩

end Verif.Props
