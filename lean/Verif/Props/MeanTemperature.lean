import Verif.Lemmas.MeanTemperature
import Verif.Props.TipCurve

/-!
# C127: mean radiating temperature and elevation

Lowering the elevation multiplies all opacities of a plane-parallel atmosphere by the same factor and thereby moves the
origin of the radiation towards the observer.
-/

namespace Verif.Props

open Verif.Py Verif.Spec Verif.Model Verif.Lemmas Real

section mean
variable {A : AbsRoutines} {g : Globals} {I : Inst} {rows : List Row} {r r' : Row}

/-- All layer opacities multiplied by `c ≥ 1`, temperature not rising with height: the mean radiating temperature seen
from the ground does not fall, the one seen from a satellite does not rise. -/
theorem C127_scaled {frq es es' c : ℝ} {nl : ℕ} {t τ : ℕ → ℝ} {s : Bool} {out out' : PlanckOut} (hf : 0 < frq)
    (hc : 1 ≤ c) (ht : Cooling nl t) (hτ : ∀ i, 0 ≤ τ i) (h0 : 0 < opacityBelow τ (nl - 1))
    (h1 : c * opacityBelow τ (nl - 1) < 125) (h : planck s es frq nl t τ = some out)
    (h' : planck s es' frq nl t (fun i => c * τ i) = some out') :
    ∃ b b' T T', out.boftmr = some b ∧ bright out.hvk b = some T ∧ out'.boftmr = some b' ∧ bright out'.hvk b' = some T' ∧
      if s then T' ≤ T else T ≤ T' := by
  have hn : 0 < nl := by
    by_contra hn
    rw [planck_eq_none_iff.2 (by omega)] at h; cases h
  have h2 : opacityBelow τ (nl - 1) < 125 := lt_of_le_of_lt (le_mul_of_one_le_left h0.le hc) h1
  have h0' : 0 < opacityBelow (fun i => c * τ i) (nl - 1) := by rw [opacityBelow_smul]; positivity
  have h1' : opacityBelow (fun i => c * τ i) (nl - 1) < 125 := by rw [opacityBelow_smul]; exact h1
  obtain ⟨m, hm, hTm, -⟩ := coldest hn ht.1
  have hx := hvkOf_pos hf
  obtain ⟨-, e1, T, e2, e3, -⟩ := mean_radiance hf hm hTm hτ h0 h2 h
  obtain ⟨-, f1, T', f2, f3, -⟩ := mean_radiance hf hm hTm (fun i => mul_nonneg (by linarith) (hτ i)) h0' h1' h'
  refine ⟨_, _, T, T', e3, by rw [e1, ← tk2b_planckLaw, bright_tk2b hx (hm.trans_le e2)], f3,
    by rw [f1, ← tk2b_planckLaw, bright_tk2b hx (hm.trans_le f2)], ?_⟩
  have hB : ∀ i, i + 1 ≤ nl - 1 → tk2b (hvkOf frq) (t (i + 1)) ≤ tk2b (hvkOf frq) (t i) := fun i hi =>
    cooling_radiance hf ht i (by omega)
  have p : ∀ σ : ℕ → ℝ, 0 < opacityBelow σ (nl - 1) → 0 < 1 - transDown σ (nl - 1) := fun σ hσ => by
    have : transDown σ (nl - 1) < 1 := by unfold transDown; rw [exp_lt_one_iff]; linarith
    linarith
  have pT := p _ h0
  have pT' := p _ h0'
  cases s
  · obtain ⟨-, -, -, -, -, g5, -⟩ := planck_ground h
    obtain ⟨-, -, -, -, -, g5', -⟩ := planck_ground h'
    have q : out.boftmr = some (skyRadiance (fun i => tk2b (hvkOf frq) (t i)) τ (nl - 1) / (1 - transDown τ (nl - 1))) := by
      rw [(g5 h2).2]; exact npDiv_of_ne pT.ne'
    have q' : out'.boftmr = some (skyRadiance (fun i => tk2b (hvkOf frq) (t i)) (fun i => c * τ i) (nl - 1) /
        (1 - transDown (fun i => c * τ i) (nl - 1))) := by
      rw [(g5' h1').2]; exact npDiv_of_ne pT'.ne'
    rw [e3, Option.some.injEq] at q
    rw [f3, Option.some.injEq] at q'
    simp only [Bool.false_eq_true, if_false]
    have key := sky_mean_mono (B := fun i => tk2b (hvkOf frq) (t i)) (n := nl - 1) hc (fun i _ _ => hτ i) hB
    rw [← div_le_div_iff₀ pT pT', ← q, ← q', ← tk2b_planckLaw, ← tk2b_planckLaw] at key
    by_contra hlt
    push Not at hlt
    linarith [tk2b_strictMono hx (hm.trans_le f2) hlt]
  · obtain ⟨-, -, -, -, -, g5, -⟩ := planck_sat h
    obtain ⟨-, -, -, -, -, g5', -⟩ := planck_sat h'
    have q : out.boftmr = some (upRadiance (fun i => tk2b (hvkOf frq) (t i)) τ (nl - 1) 0 / (1 - transDown τ (nl - 1))) := by
      rw [(g5 h2).2]; exact npDiv_of_ne pT.ne'
    have q' : out'.boftmr = some (upRadiance (fun i => tk2b (hvkOf frq) (t i)) (fun i => c * τ i) (nl - 1) 0 /
        (1 - transDown (fun i => c * τ i) (nl - 1))) := by
      rw [(g5' h1').2]; exact npDiv_of_ne pT'.ne'
    rw [e3, Option.some.injEq] at q
    rw [f3, Option.some.injEq] at q'
    simp only [if_true]
    have key := up_mean_mono (B := fun i => tk2b (hvkOf frq) (t i)) (n := nl - 1) hc (fun i _ _ => hτ i) hB
    rw [← div_le_div_iff₀ pT' pT, ← q, ← q', ← tk2b_planckLaw, ← tk2b_planckLaw] at key
    by_contra hlt
    push Not at hlt
    linarith [tk2b_strictMono hx (hm.trans_le e2) hlt]

/-- Two elevations of one plane-parallel run, `k` not above `k'`, temperature not rising with height: from the ground the
mean radiating temperature at `k` is not lower than at `k'`, from a satellite not higher. -/
theorem C127_elevation (h : (execute A g I).1 = .ok rows) (hpl : I.set.rayTracing = false) {j k k' : ℕ}
    (hj : j < I.set.nf) (hk : k < I.set.nang) (hk' : k' < I.set.nang) (ha : 0 < I.set.angles k)
    (hab : I.set.angles k ≤ I.set.angles k') (hb : I.set.angles k' ≤ 90)
    (hz : ∀ i, i + 1 < I.set.nl → I.set.z i ≤ I.set.z (i + 1)) (hst : I.set.cloudy = true ∨ NoClouds I.out)
    (hr : rows[k * I.set.nf + j]? = some r) (hr' : rows[k' * I.set.nf + j]? = some r')
    (hf : 0 < I.set.frq j) (hT : Cooling I.set.nl I.set.tk) {τ τ' : ℝ}
    (hτ : Row.Opacity r τ) (hτ' : Row.Opacity r' τ') (h0 : 0 < τ') (h1 : τ < 125) :
    ∃ T T', r.tmr = some T ∧ r'.tmr = some T' ∧ if I.set.satellite then T ≤ T' else T' ≤ T := by
  have ha' : 0 < I.set.angles k' := ha.trans_le hab
  have p1 := goodPath_plane hpl ha (by linarith) hz
  have p2 := goodPath_plane hpl ha' (by linarith) hz
  obtain ⟨t, tw, td, tl, ti, es, out, c1, c2, c3, c4, c5, -, c6, -, c8, -, c10⟩ := row_columns h hj hk p1 hst hr
  obtain ⟨t', tw', td', tl', ti', es', out', c1', c2', c3', c4', c5', c5n, c6', -, c8', -, c10'⟩ :=
    row_columns h hj hk' p2 hst hr'
  obtain ⟨_, _, _, _, d1, d2, d3, d4, rfl⟩ := hτ
  obtain ⟨_, _, _, _, d1', d2', d3', d4', rfl⟩ := hτ'
  rw [c1] at d1; rw [c2] at d2; rw [c3] at d3; rw [c4] at d4
  rw [c1'] at d1'; rw [c2'] at d2'; rw [c3'] at d3'; rw [c4'] at d4'
  cases d1; cases d2; cases d3; cases d4
  cases d1'; cases d2'; cases d3'; cases d4'
  rw [← c5] at h1
  rw [← c5'] at h0
  have ht := taulay_ratio h hpl hj hk hk' ⟨ha, by linarith⟩ ⟨ha', by linarith⟩ hst c6 c6'
  have s1 := sin_pos_of_angle ha (show I.set.angles k < 180 by linarith)
  have hc : 1 ≤ sin (I.set.angles k' * π / 180) / sin (I.set.angles k * π / 180) := by
    rw [one_le_div s1]
    refine sin_le_sin_of_le_of_le_pi_div_two ?_ ?_ ?_
    · have : 0 ≤ I.set.angles k * π / 180 := by positivity
      linarith [pi_pos]
    · have := mul_le_mul_of_nonneg_right hb pi_pos.le
      linarith
    · gcongr
  have e : t = fun i => sin (I.set.angles k' * π / 180) / sin (I.set.angles k * π / 180) * t' i := funext ht
  rw [e] at c8 h1
  rw [opacityBelow_smul] at h1
  obtain ⟨b, b', T, T', g1, g2, g3, g4, g5⟩ := C127_scaled hf hc hT c5n h0 h1 c8' c8
  exact ⟨T', T, by rw [c10, g3]; exact g4, by rw [c10', g1]; exact g2, g5⟩

/-- The clear scene seen at 30 and 90 degrees from either side. -/
example (sat : Bool) : ∃ rows r r' T T', (execute demoA demoG ⟨tipS sat, Store.zero⟩).1 = .ok rows ∧ rows[2]? = some r ∧
    rows[0]? = some r' ∧ r.tmr = some T ∧ r'.tmr = some T' ∧ if sat then T ≤ T' else T' ≤ T := by
  obtain ⟨rows, h⟩ := tip_runs sat
  obtain ⟨r, τ, h1, h2, h3, h4⟩ := tip_rows sat (k := 1) (by decide) h
  obtain ⟨r', τ', h1', h2', h3', h4'⟩ := tip_rows sat (k := 0) (by decide) h
  obtain ⟨T, T', a1, a2, a3⟩ := C127_elevation (j := 0) (k := 1) (k' := 0) h rfl (show 0 < 2 by decide)
    (show 1 < 2 by decide) (show 0 < 2 by decide) (demo_angles 1 (by decide)).1 (by norm_num [tipS, demoS])
    (by norm_num [tipS, demoS]) (fun i _ => by simp [tipS, demoS]) (Or.inr fun _ _ => ⟨rfl, rfl, rfl, rfl, rfl⟩) h1 h1'
    (by norm_num [tipS, demoS]) (tip_cooling sat) h2 h2' h3' h4
  exact ⟨rows, r, r', T, T', h, h1, h1', a1, a2, a3⟩

end mean

end Verif.Props
