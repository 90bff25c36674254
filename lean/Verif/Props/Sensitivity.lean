import Verif.Lemmas.PlanckShift
import Verif.Props.Radiance
import Mathlib.Tactic.IntervalCases

/-!
# C91: errors of temperature
-/

namespace Verif.Props

open Verif.Model Verif.Py Verif.Spec Verif.Lemmas Real

variable {s : Bool} {es frq δ : ℝ} {nl : ℕ} {t t' τ : ℕ → ℝ} {out out' : PlanckOut}

theorem sky_nonneg' {B : ℕ → ℝ} {n : ℕ} (hτ : ∀ i, 1 ≤ i → i ≤ n → 0 ≤ τ i) (hB : ∀ i ≤ n, 0 ≤ B i) :
    0 ≤ skyRadiance B τ n := by
  have := skyRadiance_mono (n := n) (B := fun _ => 0) (B' := B) hτ fun i hi => hB i hi
  rwa [skyRadiance_const, zero_mul] at this

theorem up_nonneg' {B : ℕ → ℝ} {n m : ℕ} (hm : m ≤ n) (hτ : ∀ i, 1 ≤ i → i ≤ n → 0 ≤ τ i) (hB : ∀ i ≤ n, 0 ≤ B i) :
    0 ≤ upRadiance B τ n m := by
  have := upRadiance_mono (n := n) (m := m) (B := fun _ => 0) (B' := B) (fun i h1 h2 => hτ i (by omega) h2) fun i hi => hB i hi
  rwa [upRadiance_const _ hm, zero_mul] at this

theorem planck_shift (hf : 0 < frq) (hes : 0 ≤ es ∧ es ≤ 1) (hδ : 0 < δ) (hT : AtMostWarmer nl δ t t')
    (hτ : ∀ i, 0 < i → i < nl → 0 ≤ τ i) (h : planck s es frq nl t τ = some out)
    (h' : planck s es frq nl t' τ = some out') :
    (0 ≤ out.boftotl ∧ 0 ≤ out'.boftotl ∧ out'.boftotl ≤ shifted (hvkOf frq / δ) out.boftotl) ∧
    (∀ i < nl, 0 ≤ out.boftatm i ∧ 0 ≤ out'.boftatm i ∧ out'.boftatm i ≤ shifted (hvkOf frq / δ) (out.boftatm i)) ∧
    (opacityBelow τ (nl - 1) ≠ 0 → ∃ r r', out.boftmr = some r ∧ out'.boftmr = some r' ∧ 0 ≤ r ∧ 0 ≤ r' ∧
      r' ≤ shifted (hvkOf frq / δ) r) := by
  have hh := hvkOf_pos hf
  have hc : 0 < hvkOf frq / δ := by positivity
  have hτ' : ∀ i, 1 ≤ i → i ≤ nl - 1 → 0 ≤ τ i := fun i h1 h2 => hτ i h1 (by omega)
  have hsum : 0 ≤ opacityBelow τ (nl - 1) := opacityBelow_nonneg hτ'
  have hx : exp (-opacityBelow τ (nl - 1)) ≤ 1 := exp_le_one_iff.2 (by linarith)
  have hx0 := exp_pos (-opacityBelow τ (nl - 1))
  have hB {u u' : ℝ} (hu : 0 < u) (hu' : 0 < u') (hle : u' ≤ u + δ) :
      0 ≤ tk2b (hvkOf frq) u ∧ tk2b (hvkOf frq) u' ≤ shifted (hvkOf frq / δ) (tk2b (hvkOf frq) u) := by
    refine ⟨(tk2b_pos hh hu).le, ?_⟩
    rw [← tk2b_add hh hδ hu]
    exact tk2b_mono hh hu' hle
  have mr (R R' : ℝ) (hR : 0 ≤ R) (hR' : 0 ≤ R') (hop : opacityBelow τ (nl - 1) ≠ 0)
      (key : ∀ b b', 0 ≤ b → b' ≤ shifted (hvkOf frq / δ) b → R' + b' * exp (-opacityBelow τ (nl - 1)) ≤
        shifted (hvkOf frq / δ) (R + b * exp (-opacityBelow τ (nl - 1)))) :
      npDiv R (1 - exp (-opacityBelow τ (nl - 1))) = some (R / (1 - exp (-opacityBelow τ (nl - 1)))) ∧
      npDiv R' (1 - exp (-opacityBelow τ (nl - 1))) = some (R' / (1 - exp (-opacityBelow τ (nl - 1)))) ∧
      0 ≤ R / (1 - exp (-opacityBelow τ (nl - 1))) ∧ 0 ≤ R' / (1 - exp (-opacityBelow τ (nl - 1))) ∧
      R' / (1 - exp (-opacityBelow τ (nl - 1))) ≤
        shifted (hvkOf frq / δ) (R / (1 - exp (-opacityBelow τ (nl - 1)))) := by
    have hp : 0 < 1 - exp (-opacityBelow τ (nl - 1)) := by
      have : exp (-opacityBelow τ (nl - 1)) < 1 :=
        exp_lt_one_iff.2 (by have := lt_of_le_of_ne hsum hop.symm; linarith)
      linarith
    refine ⟨npDiv_of_ne hp.ne', npDiv_of_ne hp.ne', by positivity, by positivity, ?_⟩
    have := key (R / (1 - exp (-opacityBelow τ (nl - 1)))) _ (by positivity) le_rfl
    rw [div_le_iff₀ hp]
    have e : R + R / (1 - exp (-opacityBelow τ (nl - 1))) * exp (-opacityBelow τ (nl - 1)) =
        R / (1 - exp (-opacityBelow τ (nl - 1))) := by
      field_simp
      ring
    rw [e] at this
    linarith
  cases s
  · obtain ⟨hn, e1, -, -, e4, e5, e6, e7⟩ := planck_ground h
    obtain ⟨-, f1, -, -, f4, f5, f6, f7⟩ := planck_ground h'
    have hBs : ∀ i ≤ nl - 1, 0 ≤ tk2b (hvkOf frq) (t i) ∧
        tk2b (hvkOf frq) (t' i) ≤ shifted (hvkOf frq / δ) (tk2b (hvkOf frq) (t i)) := fun i hi =>
      hB (hT i (by omega)).1 (hT i (by omega)).2.1 (hT i (by omega)).2.2
    have nn : 0 ≤ skyRadiance (fun i => tk2b (hvkOf frq) (t i)) τ (nl - 1) :=
      sky_nonneg' hτ' fun i hi => (hBs i hi).1
    have nn' : 0 ≤ skyRadiance (fun i => tk2b (hvkOf frq) (t' i)) τ (nl - 1) :=
      sky_nonneg' hτ' fun i hi => (tk2b_pos hh (hT i (by omega)).2.1).le
    have key (b b' : ℝ) (hb : 0 ≤ b) (hb' : b' ≤ shifted (hvkOf frq / δ) b) := sky_shift hc hτ' hBs hb hb'
    unfold transDown at key
    have k0 := key 0 0 le_rfl (by rw [shifted_zero])
    rw [zero_mul, add_zero, add_zero] at k0
    have hbg := hB (u := cTcosmicbkg) (u' := cTcosmicbkg) (by norm_num [cTcosmicbkg]) (by norm_num [cTcosmicbkg])
      (by linarith)
    refine ⟨?_, fun i hi => ?_, fun hop => ?_⟩
    · rw [e7, f7]
      rcases lt_or_ge (opacityBelow τ (nl - 1)) 125 with ho | ho
      · rw [(e5 ho).1, (f5 ho).1]
        have p := mul_nonneg hbg.1 hx0.le
        refine ⟨by linarith, by linarith, ?_⟩
        rw [add_comm, add_comm (tk2b (hvkOf frq) cTcosmicbkg * _)]
        exact key _ _ hbg.1 hbg.2
      · rw [(e6 ho).1, (f6 ho).1, zero_add, zero_add]
        exact ⟨nn, nn', k0⟩
    · rw [e4 i hi, f4 i hi]
      refine ⟨sky_nonneg' (fun j h1 h2 => hτ' j h1 (by omega)) fun j hj => (hBs j (by omega)).1,
        sky_nonneg' (fun j h1 h2 => hτ' j h1 (by omega)) fun j hj => (tk2b_pos hh (hT j (by omega)).2.1).le, ?_⟩
      have := sky_shift (n := i) hc (fun j h1 h2 => hτ' j h1 (by omega)) (fun j hj => hBs j (by omega)) le_rfl
        (b' := 0) (by rw [shifted_zero])
      rwa [zero_mul, add_zero, add_zero] at this
    · rcases lt_or_ge (opacityBelow τ (nl - 1)) 125 with ho | ho
      · rw [(e5 ho).2, (f5 ho).2]
        exact ⟨_, _, mr _ _ nn nn' hop key⟩
      · rw [(e6 ho).2, (f6 ho).2]
        exact ⟨_, _, rfl, rfl, nn, nn', k0⟩
  · obtain ⟨hn, e1, -, -, e4, e5, e6, e7⟩ := planck_sat h
    obtain ⟨-, f1, -, -, f4, f5, f6, f7⟩ := planck_sat h'
    have hBs : ∀ i ≤ nl - 1, 0 ≤ tk2b (hvkOf frq) (t i) ∧
        tk2b (hvkOf frq) (t' i) ≤ shifted (hvkOf frq / δ) (tk2b (hvkOf frq) (t i)) := fun i hi =>
      hB (hT i (by omega)).1 (hT i (by omega)).2.1 (hT i (by omega)).2.2
    have nn {i : ℕ} (hi : i ≤ nl - 1) : 0 ≤ upRadiance (fun i => tk2b (hvkOf frq) (t i)) τ (nl - 1) i :=
      up_nonneg' hi hτ' fun i hi => (hBs i hi).1
    have nn' {i : ℕ} (hi : i ≤ nl - 1) : 0 ≤ upRadiance (fun i => tk2b (hvkOf frq) (t' i)) τ (nl - 1) i :=
      up_nonneg' hi hτ' fun i hi => (tk2b_pos hh (hT i (by omega)).2.1).le
    have key (b b' : ℝ) (hb : 0 ≤ b) (hb' : b' ≤ shifted (hvkOf frq / δ) b) :=
      up_shift (m := 0) hc (Nat.zero_le _) hτ' hBs hb hb'
    unfold transUp at key
    rw [opacityAbove_zero] at key
    have k0 {i : ℕ} (hi : i ≤ nl - 1) := up_shift (m := i) hc hi (fun j h1 h2 => hτ' j (by omega) h2) hBs le_rfl
        (b' := 0) (by rw [shifted_zero])
    simp only [zero_mul, add_zero] at k0
    obtain ⟨g1, g2⟩ := hBs 0 (Nat.zero_le _)
    have g3 : 0 ≤ tk2b (hvkOf frq) (t' 0) := (tk2b_pos hh (hT 0 hn).2.1).le
    refine ⟨?_, fun i hi => ?_, fun hop => ?_⟩
    · rw [e7, f7]
      rcases lt_or_ge (opacityBelow τ (nl - 1)) 125 with ho | ho
      · rw [(e5 ho).1, (f5 ho).1]
        have n1 := nn (Nat.zero_le (nl - 1))
        have n2 := nn' (Nat.zero_le (nl - 1))
        have p := mul_nonneg (mul_nonneg hes.1 g1) hx0.le
        have p' := mul_nonneg (mul_nonneg hes.1 g3) hx0.le
        refine ⟨by linarith, by linarith, ?_⟩
        rw [add_comm, add_comm (es * tk2b (hvkOf frq) (t 0) * _)]
        exact key _ _ (mul_nonneg hes.1 g1)
          ((mul_le_mul_of_nonneg_left g2 hes.1).trans (shifted_scale hc g1 hes.1 hes.2))
      · rw [(e6 ho).1, (f6 ho).1, zero_add, zero_add]
        exact ⟨nn (Nat.zero_le _), nn' (Nat.zero_le _), k0 (Nat.zero_le _)⟩
    · rw [e4 i hi, f4 i hi]
      exact ⟨nn (by omega), nn' (by omega), k0 (by omega)⟩
    · rcases lt_or_ge (opacityBelow τ (nl - 1)) 125 with ho | ho
      · rw [(e5 ho).2, (f5 ho).2]
        exact ⟨_, _, mr _ _ (nn (Nat.zero_le _)) (nn' (Nat.zero_le _)) hop key⟩
      · rw [(e6 ho).2, (f6 ho).2]
        exact ⟨_, _, rfl, rfl, nn (Nat.zero_le _), nn' (Nat.zero_le _), k0 (Nat.zero_le _)⟩

theorem planck_hvk (h : planck s es frq nl t τ = some out) : out.hvk = hvkOf frq := by
  cases s
  · exact (planck_ground h).2.1
  · exact (planck_sat h).2.1

/-- From arbitrarily small excess to none. -/
theorem shift_limit {hvk b b' : ℝ} (hδ : 0 ≤ δ) (key : ∀ ε, 0 < ε → δ ≤ ε →
    ∃ T T', bright hvk b = some T ∧ bright hvk b' = some T' ∧ T' ≤ T + ε) :
    ∃ T T', bright hvk b = some T ∧ bright hvk b' = some T' ∧ T' ≤ T + δ := by
  obtain ⟨T, T', a1, a2, -⟩ := key (δ + 1) (by linarith) (by linarith)
  refine ⟨T, T', a1, a2, le_of_forall_pos_le_add fun ε hε => ?_⟩
  obtain ⟨U, U', b1, b2, b3⟩ := key (δ + ε) (by linarith) (by linarith)
  rw [a1] at b1
  rw [a2] at b2
  cases b1
  cases b2
  linarith

/-- C91: a scene nowhere more than `δ` warmer looks at most `δ` warmer (opacities fixed). -/
theorem C91_warmer (hf : 0 < frq) (hes : 0 ≤ es ∧ es ≤ 1) (hδ : 0 ≤ δ) (hT : AtMostWarmer nl δ t t')
    (hτ : ∀ i, 0 < i → i < nl → 0 ≤ τ i) (h : planck s es frq nl t τ = some out)
    (h' : planck s es frq nl t' τ = some out') :
    ∃ Tb Tb', bright out.hvk out.boftotl = some Tb ∧ bright out'.hvk out'.boftotl = some Tb' ∧ Tb' ≤ Tb + δ := by
  rw [planck_hvk h, planck_hvk h']
  refine shift_limit hδ fun ε h0 h1 => ?_
  obtain ⟨⟨a1, a2, a3⟩, -, -⟩ := planck_shift hf hes h0
    (fun i hi => ⟨(hT i hi).1, (hT i hi).2.1, (hT i hi).2.2.trans (by linarith)⟩) hτ h h'
  exact bright_shift (hvkOf_pos hf) h0 a1 a2 a3

theorem symm_bound {hvk b b' : ℝ} (h1 : ∃ T T', bright hvk b = some T ∧ bright hvk b' = some T' ∧ T' ≤ T + δ)
    (h2 : ∃ T T', bright hvk b' = some T ∧ bright hvk b = some T' ∧ T' ≤ T + δ) :
    ∃ T T', bright hvk b = some T ∧ bright hvk b' = some T' ∧ |T' - T| ≤ δ := by
  obtain ⟨T, T', a1, a2, a3⟩ := h1
  obtain ⟨U', U, b1, b2, b3⟩ := h2
  rw [a1] at b2
  rw [a2] at b1
  cases b1
  cases b2
  exact ⟨T, T', a1, a2, abs_le.2 ⟨by linarith, by linarith⟩⟩

theorem close_warmer (h : Close nl δ t t') : AtMostWarmer nl δ t t' := fun i hi =>
  ⟨(h i hi).1, (h i hi).2.1, by have := (abs_le.1 (h i hi).2.2).2; linarith⟩

theorem close_symm (h : Close nl δ t t') : Close nl δ t' t := fun i hi =>
  ⟨(h i hi).2.1, (h i hi).1, by rw [abs_sub_comm]; exact (h i hi).2.2⟩

/-- **C91.** The error of the brightness temperature is at most the largest error of the temperatures. -/
theorem C91_brightness (hf : 0 < frq) (hes : 0 ≤ es ∧ es ≤ 1) (hδ : 0 ≤ δ) (hT : Close nl δ t t')
    (hτ : ∀ i, 0 < i → i < nl → 0 ≤ τ i) (h : planck s es frq nl t τ = some out)
    (h' : planck s es frq nl t' τ = some out') :
    ∃ Tb Tb', bright out.hvk out.boftotl = some Tb ∧ bright out'.hvk out'.boftotl = some Tb' ∧ |Tb' - Tb| ≤ δ := by
  have h1 := C91_warmer hf hes hδ (close_warmer hT) hτ h h'
  have h2 := C91_warmer hf hes hδ (close_warmer (close_symm hT)) hτ h' h
  rw [planck_hvk h, planck_hvk h'] at *
  exact symm_bound h1 h2

/-- C91: the same for the emission of the atmosphere up to (or down to) every level. -/
theorem C91_atmosphere (hf : 0 < frq) (hes : 0 ≤ es ∧ es ≤ 1) (hδ : 0 ≤ δ) (hT : Close nl δ t t')
    (hτ : ∀ i, 0 < i → i < nl → 0 ≤ τ i) (h : planck s es frq nl t τ = some out)
    (h' : planck s es frq nl t' τ = some out') (i : ℕ) (hi : i < nl) :
    ∃ Tb Tb', bright out.hvk (out.boftatm i) = some Tb ∧ bright out'.hvk (out'.boftatm i) = some Tb' ∧
      |Tb' - Tb| ≤ δ := by
  have half {u u' : ℕ → ℝ} {o o' : PlanckOut} (hc : AtMostWarmer nl δ u u') (g : planck s es frq nl u τ = some o)
      (g' : planck s es frq nl u' τ = some o') : ∃ T T', bright (hvkOf frq) (o.boftatm i) = some T ∧
        bright (hvkOf frq) (o'.boftatm i) = some T' ∧ T' ≤ T + δ := by
    refine shift_limit hδ fun ε h0 h1 => ?_
    obtain ⟨-, a, -⟩ := planck_shift hf hes h0
      (fun i hi => ⟨(hc i hi).1, (hc i hi).2.1, (hc i hi).2.2.trans (by linarith)⟩) hτ g g'
    obtain ⟨a1, a2, a3⟩ := a i hi
    exact bright_shift (hvkOf_pos hf) h0 a1 a2 a3
  rw [planck_hvk h, planck_hvk h']
  exact symm_bound (half (close_warmer hT) h h') (half (close_warmer (close_symm hT)) h' h)

/-- C91: and for the mean radiating temperature, unless the atmosphere is transparent. -/
theorem C91_mean (hf : 0 < frq) (hes : 0 ≤ es ∧ es ≤ 1) (hδ : 0 ≤ δ) (hT : Close nl δ t t')
    (hτ : ∀ i, 0 < i → i < nl → 0 ≤ τ i) (hop : opacityBelow τ (nl - 1) ≠ 0)
    (h : planck s es frq nl t τ = some out) (h' : planck s es frq nl t' τ = some out') :
    ∃ r r' T T', out.boftmr = some r ∧ out'.boftmr = some r' ∧ bright out.hvk r = some T ∧
      bright out'.hvk r' = some T' ∧ |T' - T| ≤ δ := by
  have w {u u' : ℕ → ℝ} {ε : ℝ} (hc : AtMostWarmer nl δ u u') (h1 : δ ≤ ε) : AtMostWarmer nl ε u u' := fun i hi =>
    ⟨(hc i hi).1, (hc i hi).2.1, (hc i hi).2.2.trans (by linarith)⟩
  obtain ⟨-, -, a⟩ := planck_shift hf hes (δ := δ + 1) (by linarith) (w (close_warmer hT) (by linarith)) hτ h h'
  obtain ⟨r, r', e, e', -⟩ := a hop
  have half {u u' : ℕ → ℝ} {o o' : PlanckOut} {q q' : ℝ} (hc : AtMostWarmer nl δ u u')
      (g : planck s es frq nl u τ = some o) (g' : planck s es frq nl u' τ = some o') (hq : o.boftmr = some q)
      (hq' : o'.boftmr = some q') : ∃ T T', bright (hvkOf frq) q = some T ∧
        bright (hvkOf frq) q' = some T' ∧ T' ≤ T + δ := by
    refine shift_limit hδ fun ε h0 h1 => ?_
    obtain ⟨-, -, a⟩ := planck_shift hf hes h0 (w hc h1) hτ g g'
    obtain ⟨p, p', a1, a2, a3, a4, a5⟩ := a hop
    rw [hq] at a1
    rw [hq'] at a2
    cases a1
    cases a2
    exact bright_shift (hvkOf_pos hf) h0 a3 a4 a5
  obtain ⟨T, T', b1, b2, b3⟩ := symm_bound (half (close_warmer hT) h h' e e') (half (close_warmer (close_symm hT)) h' h e' e)
  exact ⟨r, r', T, T', e, e', by rw [planck_hvk h]; exact b1, by rw [planck_hvk h']; exact b2, b3⟩

/-- C91: the bound is attained: an isothermal scene over a black surface. -/
theorem C91_sharp {T : ℝ} (hf : 0 < frq) (hT0 : 0 < T) (hδ : 0 ≤ δ) (hop : opacityBelow τ (nl - 1) < 125)
    (h : planck true 1 frq nl (fun _ => T) τ = some out) (h' : planck true 1 frq nl (fun _ => T + δ) τ = some out') :
    bright out.hvk out.boftotl = some T ∧ bright out'.hvk out'.boftotl = some (T + δ) :=
  ⟨C05_isothermal_up hf hT0 (fun _ _ => rfl) hop h, C05_isothermal_up hf (by linarith) (fun _ _ => rfl) hop h'⟩

/-- A temperature profile known to half a kelvin. -/
example : ∃ out out' Tb Tb', planck true 0.9 60 4 (fun i => 290 - 6 * i) (fun _ => 0.3) = some out ∧
    planck true 0.9 60 4 (fun i => 290 - 6 * i + 0.5 * (-1) ^ i) (fun _ => 0.3) = some out' ∧
    bright out.hvk out.boftotl = some Tb ∧ bright out'.hvk out'.boftotl = some Tb' ∧ |Tb' - Tb| ≤ 0.5 := by
  obtain ⟨out, h⟩ := planck_exists (s := true) (es := 0.9) (frq := 60) (nl := 4) (t := fun i => 290 - 6 * i)
    (τ := fun _ => 0.3) (by norm_num)
  obtain ⟨out', h'⟩ := planck_exists (s := true) (es := 0.9) (frq := 60) (nl := 4)
    (t := fun i => 290 - 6 * i + 0.5 * (-1) ^ i) (τ := fun _ => 0.3) (by norm_num)
  have hc : Close 4 0.5 (fun i => 290 - 6 * i) (fun i => 290 - 6 * i + 0.5 * (-1) ^ i) := by
    intro i hi
    interval_cases i <;> norm_num [abs_le]
  obtain ⟨Tb, Tb', h1, h2, h3⟩ := C91_brightness (by norm_num) (by norm_num) (by norm_num) hc
    (fun _ _ _ => by norm_num) h h'
  exact ⟨out, out', Tb, Tb', h, h', h1, h2, h3⟩

end Verif.Props
