import Verif.Lemmas.Opacity
import Verif.Props.Simulator

/-!
# C82, C83: more opacity, and lower elevation angles

C82 is about the radiative transfer step `planck` for two sets of layer opacities; C83 is about two elevation angles
of one simulator run.
-/

namespace Verif.Props

open Verif.Py Verif.Spec Verif.Model Real

/-! ## C82 -/

section thicker
variable {frq es es' : ℝ} {nl : ℕ} {t τ τ' : ℕ → ℝ} {out out' : PlanckOut} {T : ℝ}

/-- Layer opacities `τ'` are at least as large as `τ`, none negative. -/
def Thicker (nl : ℕ) (τ τ' : ℕ → ℝ) : Prop := ∀ i, 1 ≤ i → i < nl → 0 ≤ τ i ∧ τ i ≤ τ' i

/-- Temperature does not increase with height and is positive. -/
def Cooling (nl : ℕ) (t : ℕ → ℝ) : Prop := (∀ i < nl, 0 < t i) ∧ ∀ i, i + 1 < nl → t (i + 1) ≤ t i

theorem cooling_radiance (hf : 0 < frq) (h : Cooling nl t) :
    ∀ i < nl - 1, tk2b (hvkOf frq) (t (i + 1)) ≤ tk2b (hvkOf frq) (t i) := fun i hi =>
  tk2b_mono (hvkOf_pos hf) (h.1 _ (by omega)) (h.2 i (by omega))

theorem sky_nonneg (hf : 0 < frq) (ht : Cooling nl t) (hn : 0 < nl) (hτ : ∀ i, 1 ≤ i → i < nl → 0 ≤ τ i) :
    0 ≤ skyRadiance (fun i => tk2b (hvkOf frq) (t i)) τ (nl - 1) := by
  have := skyRadiance_mono (n := nl - 1) (B := fun _ => 0) (B' := fun i => tk2b (hvkOf frq) (t i))
    (fun i h1 h2 => hτ i h1 (by omega)) fun i hi => (tk2b_pos (hvkOf_pos hf) (ht.1 i (by omega))).le
  rwa [skyRadiance_const, zero_mul] at this

theorem up_nonneg (hf : 0 < frq) (ht : Cooling nl t) (hn : 0 < nl) (hτ : ∀ i, 1 ≤ i → i < nl → 0 ≤ τ i) :
    0 ≤ upRadiance (fun i => tk2b (hvkOf frq) (t i)) τ (nl - 1) 0 := by
  have := upRadiance_mono (n := nl - 1) (m := 0) (B := fun _ => 0) (B' := fun i => tk2b (hvkOf frq) (t i))
    (fun i h1 h2 => hτ i h1 (by omega)) fun i hi => (tk2b_pos (hvkOf_pos hf) (ht.1 i (by omega))).le
  rwa [upRadiance_const _ (Nat.zero_le _), zero_mul] at this

theorem cosmic_pos (hf : 0 < frq) : 0 < tk2b (hvkOf frq) cTcosmicbkg :=
  tk2b_pos (hvkOf_pos hf) (by norm_num [cTcosmicbkg])

/-- Looking up through an atmosphere that does not get warmer with height and is nowhere colder than the cosmic
background: more opacity never lowers the brightness temperature.  Both atmospheres on the same side of the 125 Np cut. -/
theorem C82_ground (hf : 0 < frq) (hc : Cooling nl t) (htop : 2.728 ≤ t (nl - 1)) (hτ : Thicker nl τ τ')
    (hop : opacityBelow τ' (nl - 1) < 125 ∨ 125 ≤ opacityBelow τ (nl - 1))
    (h : planck false es frq nl t τ = some out) (h' : planck false es' frq nl t τ' = some out') :
    ∃ Tb Tb', bright out.hvk out.boftotl = some Tb ∧ bright out'.hvk out'.boftotl = some Tb' ∧ Tb ≤ Tb' := by
  obtain ⟨hn, e1, -, -, -, e5, e6, e7⟩ := planck_ground h
  obtain ⟨-, f1, -, -, -, f5, f6, f7⟩ := planck_ground h'
  have hm : opacityBelow τ (nl - 1) ≤ opacityBelow τ' (nl - 1) :=
    opacityBelow_mono fun i h1 h2 => (hτ i h1 (by omega)).2
  have hτ2 : ∀ i, 1 ≤ i → i ≤ nl - 1 → 0 ≤ τ i ∧ τ i ≤ τ' i := fun i h1 h2 => hτ i h1 (by omega)
  have hp := cosmic_pos hf
  have hs := sky_nonneg hf hc hn fun i h1 h2 => (hτ i h1 h2).1
  rw [e1, f1]
  refine bright_mono (hvkOf_pos hf) ?_ ?_
  · rw [e7]
    rcases lt_or_ge (opacityBelow τ (nl - 1)) 125 with ho | ho
    · rw [(e5 ho).1]; positivity
    · rw [(e6 ho).1]; linarith
  · rw [e7, f7]
    rcases hop with ho | ho
    · rw [(e5 (hm.trans_lt ho)).1, (f5 ho).1]
      have := sky_thicker (B := fun i => tk2b (hvkOf frq) (t i))
        (b := tk2b (hvkOf frq) cTcosmicbkg) hτ2 (cooling_radiance hf hc) le_rfl
        (tk2b_mono (hvkOf_pos hf) (by norm_num [cTcosmicbkg]) htop)
      unfold transDown at this
      linarith
    · rw [(e6 ho).1, (f6 (ho.trans hm)).1]
      have := sky_thicker (B := fun i => tk2b (hvkOf frq) (t i)) (b := 0) hτ2 (cooling_radiance hf hc) le_rfl
        (tk2b_pos (hvkOf_pos hf) (hc.1 (nl - 1) (by omega))).le
      linarith

/-- Across the 125 Np cut the radiance can drop, by no more than the background seen through 125 Np. -/
theorem C82_ground_cut (hf : 0 < frq) (hc : Cooling nl t) (htop : 2.728 ≤ t (nl - 1)) (hτ : Thicker nl τ τ')
    (h : planck false es frq nl t τ = some out) (h' : planck false es' frq nl t τ' = some out') :
    out.boftotl ≤ out'.boftotl + tk2b out.hvk 2.728 * exp (-125) := by
  obtain ⟨hn, e1, -, -, -, e5, e6, e7⟩ := planck_ground h
  obtain ⟨-, f1, -, -, -, f5, f6, f7⟩ := planck_ground h'
  have hm : opacityBelow τ (nl - 1) ≤ opacityBelow τ' (nl - 1) :=
    opacityBelow_mono fun i h1 h2 => (hτ i h1 (by omega)).2
  have hτ2 : ∀ i, 1 ≤ i → i ≤ nl - 1 → 0 ≤ τ i ∧ τ i ≤ τ' i := fun i h1 h2 => hτ i h1 (by omega)
  have hp := cosmic_pos hf
  have key := sky_thicker (B := fun i => tk2b (hvkOf frq) (t i))
        (b := tk2b (hvkOf frq) cTcosmicbkg) hτ2 (cooling_radiance hf hc) le_rfl
        (tk2b_mono (hvkOf_pos hf) (by norm_num [cTcosmicbkg]) htop)
  rw [e1, e7, f7, show (2.728 : ℝ) = cTcosmicbkg from rfl]
  have hx : 0 < tk2b (hvkOf frq) cTcosmicbkg * exp (-125) := by positivity
  unfold transDown at key
  rcases lt_or_ge (opacityBelow τ' (nl - 1)) 125 with ho' | ho'
  · rw [(e5 (hm.trans_lt ho')).1, (f5 ho').1]
    linarith
  · rw [(f6 ho').1]
    have a : tk2b (hvkOf frq) cTcosmicbkg * exp (-opacityBelow τ' (nl - 1)) ≤
        tk2b (hvkOf frq) cTcosmicbkg * exp (-125) :=
      mul_le_mul_of_nonneg_left (exp_le_exp.2 (by linarith)) hp.le
    rcases lt_or_ge (opacityBelow τ (nl - 1)) 125 with ho | ho
    · rw [(e5 ho).1]; linarith
    · rw [(e6 ho).1]
      have : 0 < tk2b (hvkOf frq) cTcosmicbkg * exp (-opacityBelow τ (nl - 1)) := by positivity
      linarith

/-- Looking down on a black surface through an atmosphere that does not get warmer with height: more opacity never
raises the brightness temperature (the thinner atmosphere below the 125 Np cut). -/
theorem C82_satellite (hf : 0 < frq) (hc : Cooling nl t) (hτ : Thicker nl τ τ')
    (hop : opacityBelow τ (nl - 1) < 125)
    (h : planck true 1 frq nl t τ = some out) (h' : planck true 1 frq nl t τ' = some out') :
    ∃ Tb Tb', bright out.hvk out.boftotl = some Tb ∧ bright out'.hvk out'.boftotl = some Tb' ∧ Tb' ≤ Tb := by
  obtain ⟨hn, e1, -, -, -, e5, e6, e7⟩ := planck_sat h
  obtain ⟨-, f1, -, -, -, f5, f6, f7⟩ := planck_sat h'
  have hτ2 : ∀ i, 0 < i → i ≤ nl - 1 → 0 ≤ τ i ∧ τ i ≤ τ' i := fun i h1 h2 => hτ i h1 (by omega)
  have hp : 0 < tk2b (hvkOf frq) (t 0) := tk2b_pos (hvkOf_pos hf) (hc.1 0 hn)
  have hs := up_nonneg hf hc hn fun i h1 h2 => (hτ i h1 h2).1.trans (hτ i h1 h2).2
  have key := up_thicker (B := fun i => tk2b (hvkOf frq) (t i)) (b := tk2b (hvkOf frq) (t 0))
    (Nat.zero_le (nl - 1)) hτ2 (cooling_radiance hf hc) le_rfl
    le_rfl
  unfold transUp at key
  rw [opacityAbove_zero, opacityAbove_zero] at key
  rw [e1, f1]
  have hx : 0 < tk2b (hvkOf frq) (t 0) * exp (-opacityBelow τ' (nl - 1)) := by positivity
  obtain ⟨a, b, c, d, e⟩ := bright_mono (hvkOf_pos hf) (b := out'.boftotl) (b' := out.boftotl)
    (by
      rw [f7]
      rcases lt_or_ge (opacityBelow τ' (nl - 1)) 125 with ho | ho
      · rw [(f5 ho).1]; linarith
      · rw [(f6 ho).1]; linarith)
    (by
      rw [e7, f7, (e5 hop).1]
      rcases lt_or_ge (opacityBelow τ' (nl - 1)) 125 with ho | ho
      · rw [(f5 ho).1]; linarith
      · rw [(f6 ho).1]; linarith)
  exact ⟨b, a, d, c, e⟩

/-- The black surface is needed: over a reflecting surface (emissivity below 1) an isothermal scene gets strictly
warmer with opacity, because reflected downwelling radiation is not modelled. -/
theorem C82_satellite_reflecting (hf : 0 < frq) (hT0 : 0 < T) (hT : ∀ i < nl, t i = T) (hes : 0 ≤ es ∧ es < 1)
    (hτ : 0 ≤ opacityBelow τ (nl - 1)) (hlt : opacityBelow τ (nl - 1) < opacityBelow τ' (nl - 1))
    (hop : opacityBelow τ' (nl - 1) < 125)
    (h : planck true es frq nl t τ = some out) (h' : planck true es frq nl t τ' = some out') :
    ∃ Tb Tb', bright out.hvk out.boftotl = some Tb ∧ bright out'.hvk out'.boftotl = some Tb' ∧ Tb < Tb' := by
  have key : ∀ {σ : ℕ → ℝ} {o : PlanckOut}, opacityBelow σ (nl - 1) < 125 → planck true es frq nl t σ = some o →
      o.hvk = hvkOf frq ∧
      o.boftotl = tk2b (hvkOf frq) T * (1 - (1 - es) * exp (-opacityBelow σ (nl - 1))) := by
    intro σ o ho hp
    obtain ⟨hn, e1, -, -, -, e5, -, e7⟩ := planck_sat hp
    rw [upRadiance_congr (B' := fun _ => tk2b (hvkOf frq) T)
      (fun i hi => by rw [hT i (by omega)]), upRadiance_const _ (Nat.zero_le _)] at e7
    refine ⟨e1, ?_⟩
    rw [e7, (e5 ho).1, hT 0 hn]
    unfold transUp
    rw [opacityAbove_zero]
    ring
  obtain ⟨e1, e2⟩ := key (hlt.trans hop) h
  obtain ⟨f1, f2⟩ := key hop h'
  have hp := tk2b_pos (hvkOf_pos hf) hT0
  have x1 : exp (-opacityBelow τ (nl - 1)) ≤ 1 := exp_le_one_iff.2 (by linarith)
  have x2 : exp (-opacityBelow τ' (nl - 1)) < exp (-opacityBelow τ (nl - 1)) := exp_lt_exp.2 (by linarith)
  have x3 := exp_pos (-opacityBelow τ (nl - 1))
  rw [e1, f1]
  refine C02_bright_strictMono (hvkOf_pos hf) ?_ ?_
  · rw [e2]
    refine mul_nonneg hp.le ?_
    nlinarith [hes.1, hes.2]
  · rw [e2, f2]
    refine mul_lt_mul_of_pos_left ?_ hp
    nlinarith [hes.1, hes.2]

/-- Planck radiance at 300 K is at least 3/2 of that at 200 K. -/
theorem tk2b_ratio (hf : 0 < frq) : 3 / 2 * tk2b (hvkOf frq) 200 ≤ tk2b (hvkOf frq) 300 := by
  have hh := hvkOf_pos hf
  have p2 := exp_sub_one_pos hh (show (0:ℝ) < 200 by norm_num)
  have p3 := exp_sub_one_pos hh (show (0:ℝ) < 300 by norm_num)
  unfold tk2b
  rw [norm_one, show (3 / 2 * (1 / (exp (hvkOf frq / 200) - 1)) : ℝ) =
    3 / (2 * (exp (hvkOf frq / 200) - 1)) by field_simp, div_le_div_iff₀ (by positivity) p3]
  have e3 : exp (hvkOf frq / 200) = exp (hvkOf frq / 600) ^ 3 := by rw [← exp_nat_mul]; congr 1; push_cast; ring
  have e2 : exp (hvkOf frq / 300) = exp (hvkOf frq / 600) ^ 2 := by rw [← exp_nat_mul]; congr 1; push_cast; ring
  have hu : 1 < exp (hvkOf frq / 600) := one_lt_exp_iff.2 (by positivity)
  rw [e3, e2]
  generalize exp (hvkOf frq / 600) = u at hu
  have : 0 ≤ (u - 1) * ((u - 1) * (2 * u + 1)) := by
    have : 0 < u - 1 := by linarith
    have : 0 < 2 * u + 1 := by linarith
    positivity
  nlinarith

/-- A cold layer below warm air: four levels at 200, 200, 300 and 300 K. -/
noncomputable def inversion : ℕ → ℝ := fun i => if i < 2 then 200 else 300

/-- The cooling with height is needed: below warm air a thicker cold layer lowers the brightness temperature seen from
the ground, at every frequency. -/
theorem C82_ground_inversion (hf : 0 < frq) :
    ∃ out out' Tb Tb', planck false 1 frq 4 inversion (fun i => if i = 3 then 2 else 0) = some out ∧
      planck false 1 frq 4 inversion (fun i => if i = 3 then 2 else if i = 1 then 1 else 0) = some out' ∧
      bright out.hvk out.boftotl = some Tb ∧ bright out'.hvk out'.boftotl = some Tb' ∧ Tb' < Tb := by
  obtain ⟨out, h⟩ := planck_exists (s := false) (es := 1) (frq := frq)
    (t := inversion) (τ := fun i => if i = 3 then 2 else 0) (show (4:ℕ) ≠ 0 by decide)
  obtain ⟨out', h'⟩ := planck_exists (s := false) (es := 1) (frq := frq)
    (t := inversion) (τ := fun i => if i = 3 then 2 else if i = 1 then 1 else 0) (show (4:ℕ) ≠ 0 by decide)
  obtain ⟨-, e1, -, -, -, e5, -, e7⟩ := planck_ground h
  obtain ⟨-, f1, -, -, -, f5, -, f7⟩ := planck_ground h'
  have o1 : opacityBelow (fun i => if i = 3 then 2 else 0) 3 = 2 := by
    norm_num [opacityBelow, Finset.sum_Icc_succ_top]
  have o2 : opacityBelow (fun i => if i = 3 then 2 else if i = 1 then 1 else 0) 3 = 3 := by
    norm_num [opacityBelow, Finset.sum_Icc_succ_top]
  have a := e5 (by rw [show 4 - 1 = 3 from rfl, o1]; norm_num)
  have a' := f5 (by rw [show 4 - 1 = 3 from rfl, o2]; norm_num)
  set b2 := tk2b (hvkOf frq) 200 with hb2
  set b3 := tk2b (hvkOf frq) 300 with hb3
  have c0 := cosmic_pos hf
  have hr := tk2b_ratio hf
  have p2 : 0 < b2 := tk2b_pos (hvkOf_pos hf) (by norm_num)
  have s1 : skyRadiance (fun i => tk2b (hvkOf frq) (inversion i)) (fun i => if i = 3 then 2 else 0) 3 =
      b3 * (1 - exp (-2)) := by
    rw [hb3]
    simp only [skyRadiance_succ, skyRadiance_zero, transDown_succ, transDown_zero, inversion]
    norm_num [layerSource_const]
  have s2 : skyRadiance (fun i => tk2b (hvkOf frq) (inversion i))
      (fun i => if i = 3 then 2 else if i = 1 then 1 else 0) 3 =
      b2 * (1 - exp (-1)) + exp (-1) * (b3 * (1 - exp (-2))) := by
    simp only [skyRadiance_succ, skyRadiance_zero, transDown_succ, transDown_zero, inversion]
    norm_num [layerSource_const]
    ring
  rw [show 4 - 1 = 3 from rfl, o1] at a
  rw [show 4 - 1 = 3 from rfl, o2] at a'
  have x1 : exp (-1) < 1 := by rw [exp_lt_one_iff]; norm_num
  have x0 := exp_pos (-1)
  have x2 : exp (-2) < 1 / 3 := by
    rw [exp_neg, inv_eq_one_div]
    refine one_div_lt_one_div_of_lt (by norm_num) ?_
    have := add_one_lt_exp (one_ne_zero (α := ℝ))
    rw [show (2:ℝ) = 1 + 1 by norm_num, exp_add]
    nlinarith
  have x3 : exp (-3) = exp (-1) * exp (-2) := by rw [← exp_add]; norm_num
  have hy := exp_pos (-2)
  obtain ⟨T', T, g1, g2, g3⟩ := C02_bright_strictMono (hvkOf_pos hf) (b := out'.boftotl) (b' := out.boftotl)
    (by
      rw [f7, a'.1, show 4 - 1 = 3 from rfl, s2, x3]
      have : 0 < 1 - exp (-2) := by linarith
      have : 0 < 1 - exp (-1) := by linarith
      have : 0 < b3 := tk2b_pos (hvkOf_pos hf) (by norm_num)
      positivity)
    (by
      rw [e7, f7, a.1, a'.1, show 4 - 1 = 3 from rfl, s1, s2, x3]
      have k : b2 < b3 * (1 - exp (-2)) + tk2b (hvkOf frq) cTcosmicbkg * exp (-2) := by
        have := mul_pos c0 hy
        have : b3 * (2 / 3) ≤ b3 * (1 - exp (-2)) :=
          mul_le_mul_of_nonneg_left (by linarith) (tk2b_pos (hvkOf_pos hf) (by norm_num)).le
        linarith
      have := mul_pos (sub_pos.2 k) (sub_pos.2 x1)
      nlinarith)
  exact ⟨out, out', T, T', h, h', e1 ▸ g2, f1 ▸ g1, g3⟩

/-- The hypotheses of `C82_ground` and `C82_satellite` hold for a three-level profile. -/
example : Cooling 3 (fun i => 300 - 10 * i) ∧ Thicker 3 (fun _ => 0.1) (fun i => 0.2 * i) ∧
    opacityBelow (fun i => 0.2 * (i:ℝ)) 2 < 125 := by
  refine ⟨⟨fun i hi => ?_, fun i _ => ?_⟩, fun i h1 h2 => ?_, ?_⟩
  · have : (i:ℝ) ≤ 2 := by exact_mod_cast Nat.lt_succ_iff.1 hi
    linarith
  · push_cast; linarith
  · have : (1:ℝ) ≤ i := by exact_mod_cast h1
    constructor <;> linarith
  · norm_num [opacityBelow, Finset.sum_Icc_succ_top]

end thicker

/-! ## C83 -/

section angles
variable {A : AbsRoutines} {g : Globals} {I : Inst} {rows : List Row}

theorem sin_le_of_angle {a b : ℝ} (h0 : 0 < a) (hab : a ≤ b) (hb : b ≤ 90) :
    sin (a * π / 180) ≤ sin (b * π / 180) := by
  have := pi_pos
  apply sin_le_sin_of_le_of_le_pi_div_two
  · have : 0 ≤ a * π / 180 := by positivity
    linarith
  · rw [div_le_div_iff₀ (by norm_num) (by norm_num)]
    nlinarith
  · gcongr

/-- Layer opacities seen at two elevation angles of one plane-parallel run. -/
theorem angle_ratio (h : (execute A g I).1 = .ok rows) (hr : I.set.rayTracing = false) {j k k' : ℕ}
    (hj : j < I.set.nf) (hk : k < I.set.nang) (hk' : k' < I.set.nang)
    (ha : 0 < I.set.angles k ∧ I.set.angles k < 180) (hb : 0 < I.set.angles k' ∧ I.set.angles k' < 180)
    (hst : I.set.cloudy = true ∨ NoClouds I.out) :
    let c := sin (I.set.angles k' * π / 180) / sin (I.set.angles k * π / 180)
    let o := (execute A g I).2.out
    (o.cell j k).ptauwet = (o.cell j k').ptauwet.map (fun f i => c * f i) ∧
    (o.cell j k).ptaudry = (o.cell j k').ptaudry.map (fun f i => c * f i) ∧
    (o.cell j k).ptauliq = (o.cell j k').ptauliq.map (fun f i => c * f i) ∧
    (o.cell j k).ptauice = (o.cell j k').ptauice.map (fun f i => c * f i) := by
  intro c o
  obtain ⟨g1, e, rho, -, -, -, hc⟩ := (execute_ok h).ex
  have s1 := (sin_pos_of_angle ha.1 ha.2).ne'
  have s2 := (sin_pos_of_angle hb.1 hb.2).ne'
  obtain ⟨es, q1, q2⟩ := (hc k hk).2 j hj
  obtain ⟨es', q1', q2'⟩ := (hc k' hk').2 j hj
  rw [q1] at q1'; cases q1'
  rw [pathOf_plane hr s1] at q2
  rw [pathOf_plane hr s2] at q2'
  have hd : (fun i => if i = 0 then 0 else (I.set.z i - I.set.z (i - 1)) * (1 / sin (I.set.angles k * π / 180))) =
      fun i => c * if i = 0 then 0 else (I.set.z i - I.set.z (i - 1)) * (1 / sin (I.set.angles k' * π / 180)) := by
    funext i
    by_cases hi : i = 0
    · simp [hi]
    · simp only [hi, if_false, c]
      generalize sin (I.set.angles k' * π / 180) = u at s2
      field_simp
  rw [hd] at q2
  have c1 := cellStep_ok q2
  have c2 := cellStep_ok q2'
  obtain ⟨a, a1, a2, a3, a4, a5⟩ := c1.clear
  obtain ⟨b, b1, b2, b3, b4, b5⟩ := c2.clear
  rw [a1] at b1
  cases b1
  refine ⟨(integ_scale c b4 a4).2, (integ_scale c b5 a5).2, ?_⟩
  by_cases hcl : I.set.cloudy = true
  · obtain ⟨dl, di, u, u1, u2, u3, u4⟩ := c1.cloud hcl
    obtain ⟨dl', di', u', v1, v2, v3, v4⟩ := c2.cloud hcl
    rw [u1] at v1; cases v1
    rw [u2] at v2; cases v2
    exact ⟨(integ_scale c v3 u3).2, (integ_scale c v4 u4).2⟩
  · have hno := hst.resolve_left hcl
    have t1 := c1.stale (by simpa using hcl)
    have t2 := c2.stale (by simpa using hcl)
    refine ⟨?_, ?_⟩
    · rw [show (o.cell j k).ptauliq = _ from t1.ptauliq.symm, show (o.cell j k').ptauliq = _ from t2.ptauliq.symm,
        (hno j k).1, (hno j k').1]
      simp [Cell.zero]
    · rw [show (o.cell j k).ptauice = _ from t1.ptauice.symm, show (o.cell j k').ptauice = _ from t2.ptauice.symm,
        (hno j k).2, (hno j k').2]
      simp [Cell.zero]

/-- Two plane-parallel views of one run: the layer opacities of the lower one are not smaller, and both brightness
temperatures come from the radiative transfer through them. -/
theorem angle_views (h : (execute A g I).1 = .ok rows) (hr : I.set.rayTracing = false) {j k k' : ℕ}
    (hj : j < I.set.nf) (hk : k < I.set.nang) (hk' : k' < I.set.nang) (ha : 0 < I.set.angles k)
    (hab : I.set.angles k ≤ I.set.angles k') (hb : I.set.angles k' ≤ 90)
    (hz : ∀ i, i + 1 < I.set.nl → I.set.z i ≤ I.set.z (i + 1)) (hst : I.set.cloudy = true ∨ NoClouds I.out) :
    let o := (execute A g I).2.out
    ∃ τ τ' es out out', Thicker I.set.nl τ' τ ∧ (o.cell j k).taulay = some τ ∧ (o.cell j k').taulay = some τ' ∧
      I.set.es[j]? = some es ∧
      planck I.set.satellite es (I.set.frq j) I.set.nl I.set.tk τ = some out ∧
      (o.cell j k).tbtotal = bright out.hvk out.boftotl ∧
      planck I.set.satellite es (I.set.frq j) I.set.nl I.set.tk τ' = some out' ∧
      (o.cell j k').tbtotal = bright out'.hvk out'.boftotl := by
  intro o
  have hcl : I.set.cloudy = true ∨ CleanClouds I := hst.imp id fun hn j k =>
    ⟨_, _, (hn j k).1, (hn j k).2, fun _ => le_rfl, fun _ => le_rfl⟩
  obtain ⟨w, y, l, i, es, e1, e2, e3, e4, hp, hes, out, ho, hb1⟩ :=
    C26_cell h hj hk (goodPath_plane hr ha (by linarith) hz) hcl
  obtain ⟨w', y', l', i', es', f1, f2, f3, f4, hp', hes', out', ho', hb2⟩ :=
    C26_cell h hj hk' (goodPath_plane hr (ha.trans_le hab) (by linarith) hz) hcl
  rw [hes] at hes'; cases hes'
  obtain ⟨r1, r2, r3, r4⟩ := angle_ratio h hr hj hk hk' ⟨ha, by linarith⟩ ⟨ha.trans_le hab, by linarith⟩ hst
  rw [e1, f1] at r1
  rw [e2, f2] at r2
  rw [e3, f3] at r3
  rw [e4, f4] at r4
  simp only [Option.map_some, Option.some.injEq] at r1 r2 r3 r4
  refine ⟨_, _, es, out, out', fun n _ _ => ?_, ?_, ?_, hes, ho, hb1, ho', hb2⟩
  · obtain ⟨a1, a2, a3, a4⟩ := hp' n
    have hs := sin_pos_of_angle ha (by linarith : I.set.angles k < 180)
    have hc : 1 ≤ sin (I.set.angles k' * π / 180) / sin (I.set.angles k * π / 180) := by
      rw [le_div_iff₀ hs, one_mul]
      exact sin_le_of_angle ha hab hb
    rw [r1, r2, r3, r4]
    refine ⟨by linarith, ?_⟩
    have b1 := mul_le_mul_of_nonneg_right hc a1
    have b2 := mul_le_mul_of_nonneg_right hc a2
    have b3 := mul_le_mul_of_nonneg_right hc a3
    have b4 := mul_le_mul_of_nonneg_right hc a4
    simp only
    linarith
  · simp only [Cell.taulay, o, e1, e2, e3, e4]
  · simp only [Cell.taulay, o, f1, f2, f3, f4]

theorem integ_layer_le {z : Bool} {nl : ℕ} {x d : Val} {s : Option ℝ} {xs : Option Val} {a : ℝ}
    (hd : ∀ i < nl, 0 ≤ d i) (hx : ∀ i < nl, 0 ≤ x i ∧ x i ≤ a) (h : integ z nl x (.ok d) 1 1 = .ok (s, xs))
    (hn : 0 < nl) : ∃ f, xs = some f ∧ ∀ i, 1 ≤ i → i < nl → f i ≤ a * d i := by
  simp only [integ] at h
  cases he : expInt z nl x d 1 nl 1 with
  | error x => rw [he] at h; cases h
  | ok r =>
    rw [he] at h
    cases h
    refine ⟨r.2, rfl, fun i h1 h2 => ?_⟩
    refine (C14_between hn (fun i hi => (hx i hi).1) he h1 h1 h2 (hd i h2)).2.trans ?_
    exact mul_le_mul_of_nonneg_right (max_le (hx _ (by omega)).2 (hx i h2).2) (hd i h2)

theorem telescope (z : ℕ → ℝ) (c : ℝ) (n : ℕ) : ∑ i ∈ Finset.Icc 1 n, c * (z i - z (i - 1)) = c * (z n - z 0) := by
  induction n with
  | zero => simp
  | succ n ih => rw [Finset.sum_Icc_succ_top (by omega), ih, Nat.add_sub_cancel]; ring

/-- Total opacity of a plane-parallel clear view: at most the largest absorption times the path length. -/
theorem clear_opacity_le (h : (execute A g I).1 = .ok rows) (hr : I.set.rayTracing = false) {j k : ℕ}
    (hj : j < I.set.nf) (hk : k < I.set.nang) (hn : 0 < I.set.nl)
    (ha : 0 < I.set.angles k) (hb : I.set.angles k < 180)
    (hz : ∀ i, i + 1 < I.set.nl → I.set.z i ≤ I.set.z (i + 1)) (hcl : I.set.cloudy = false) (hst : NoClouds I.out)
    {a b : ℝ} (hw : ∀ i < I.set.nl, 0 ≤ ((execute A g I).2.out.cell j k).awet i ∧
      ((execute A g I).2.out.cell j k).awet i ≤ a)
    (hy : ∀ i < I.set.nl, 0 ≤ ((execute A g I).2.out.cell j k).adry i ∧
      ((execute A g I).2.out.cell j k).adry i ≤ b) {τ : Val}
    (ht : ((execute A g I).2.out.cell j k).taulay = some τ) :
    opacityBelow τ (I.set.nl - 1) ≤
      (a + b) / sin (I.set.angles k * π / 180) * (I.set.z (I.set.nl - 1) - I.set.z 0) := by
  obtain ⟨g1, e, rho, -, -, -, hc⟩ := (execute_ok h).ex
  have hs := sin_pos_of_angle ha hb
  obtain ⟨es, q1, q2⟩ := (hc k hk).2 j hj
  rw [pathOf_plane hr hs.ne'] at q2
  have c1 := cellStep_ok q2
  obtain ⟨u, -, a2, a3, a4, a5⟩ := c1.clear
  have hd : ∀ i < I.set.nl, 0 ≤ (fun i => if i = 0 then 0 else
      (I.set.z i - I.set.z (i - 1)) * (1 / sin (I.set.angles k * π / 180))) i := fun i hi => by
    simp only
    split_ifs with h0
    · exact le_rfl
    · have := hz (i - 1) (by omega)
      rw [show i - 1 + 1 = i by omega] at this
      exact mul_nonneg (by linarith) (by positivity)
  rw [a2] at hw
  rw [a3] at hy
  obtain ⟨f, f1, f2⟩ := integ_layer_le hd hw a4 hn
  obtain ⟨f', f1', f2'⟩ := integ_layer_le hd hy a5 hn
  have t1 := c1.stale hcl
  have l0 := t1.ptauliq.symm.trans (hst j k).1
  have i0 := t1.ptauice.symm.trans (hst j k).2
  simp only [Cell.taulay, f1, f1', l0, i0, Cell.zero, Option.some.injEq] at ht
  subst ht
  rw [← telescope I.set.z]
  refine Finset.sum_le_sum fun i hi => ?_
  simp only [Finset.mem_Icc] at hi
  have g1 := f2 i hi.1 (by omega)
  have g2 := f2' i hi.1 (by omega)
  rw [if_neg (by omega)] at g1 g2
  have : (a + b) / sin (I.set.angles k * π / 180) * (I.set.z i - I.set.z (i - 1)) =
    a * ((I.set.z i - I.set.z (i - 1)) * (1 / sin (I.set.angles k * π / 180))) +
    b * ((I.set.z i - I.set.z (i - 1)) * (1 / sin (I.set.angles k * π / 180))) := by ring
  rw [this]
  linarith

/-- A ground based radiometer tipped towards the horizon sees a sky that is not colder, whatever the absorption model:
plane-parallel geometry, temperature not increasing with height and nowhere below 2.728 K, total opacity of the lower
view below 125 Np. -/
theorem C83_ground (h : (execute A g I).1 = .ok rows) (hr : I.set.rayTracing = false)
    (hsat : I.set.satellite = false) {j k k' : ℕ}
    (hj : j < I.set.nf) (hk : k < I.set.nang) (hk' : k' < I.set.nang) (ha : 0 < I.set.angles k)
    (hab : I.set.angles k ≤ I.set.angles k') (hb : I.set.angles k' ≤ 90)
    (hz : ∀ i, i + 1 < I.set.nl → I.set.z i ≤ I.set.z (i + 1)) (hst : I.set.cloudy = true ∨ NoClouds I.out)
    (hf : 0 < I.set.frq j) (hc : Cooling I.set.nl I.set.tk) (htop : 2.728 ≤ I.set.tk (I.set.nl - 1))
    (hop : ∀ τ, ((execute A g I).2.out.cell j k).taulay = some τ → opacityBelow τ (I.set.nl - 1) < 125) :
    ∃ Tlow Thigh, ((execute A g I).2.out.cell j k).tbtotal = some Tlow ∧
      ((execute A g I).2.out.cell j k').tbtotal = some Thigh ∧ Thigh ≤ Tlow := by
  obtain ⟨τ, τ', es, out, out', ht, l1, l2, -, p1, b1, p2, b2⟩ := angle_views h hr hj hk hk' ha hab hb hz hst
  rw [hsat] at p1 p2
  obtain ⟨a, b, c, d, e⟩ := C82_ground hf hc htop ht (Or.inl (hop τ l1)) p2 p1
  exact ⟨b, a, b1.trans d, b2.trans c, e⟩

/-- A satellite instrument looking more obliquely at a black surface measures a brightness temperature that is not
higher (limb darkening): plane-parallel geometry, temperature not increasing with height, total opacity of the steeper
view below 125 Np. -/
theorem C83_satellite (h : (execute A g I).1 = .ok rows) (hr : I.set.rayTracing = false)
    (hsat : I.set.satellite = true) {j k k' : ℕ}
    (hj : j < I.set.nf) (hk : k < I.set.nang) (hk' : k' < I.set.nang) (ha : 0 < I.set.angles k)
    (hab : I.set.angles k ≤ I.set.angles k') (hb : I.set.angles k' ≤ 90)
    (hz : ∀ i, i + 1 < I.set.nl → I.set.z i ≤ I.set.z (i + 1)) (hst : I.set.cloudy = true ∨ NoClouds I.out)
    (hf : 0 < I.set.frq j) (hc : Cooling I.set.nl I.set.tk) (hes : I.set.es[j]? = some 1)
    (hop : ∀ τ, ((execute A g I).2.out.cell j k').taulay = some τ → opacityBelow τ (I.set.nl - 1) < 125) :
    ∃ Tlow Thigh, ((execute A g I).2.out.cell j k).tbtotal = some Tlow ∧
      ((execute A g I).2.out.cell j k').tbtotal = some Thigh ∧ Tlow ≤ Thigh := by
  obtain ⟨τ, τ', es, out, out', ht, l1, l2, he, p1, b1, p2, b2⟩ := angle_views h hr hj hk hk' ha hab hb hz hst
  rw [hes] at he; cases he
  rw [hsat] at p1 p2
  obtain ⟨a, b, c, d, e⟩ := C82_satellite hf hc ht (hop τ' l2) p2 p1
  exact ⟨b, a, b1.trans d, b2.trans c, e⟩

/-- A clear sky over three levels, viewed at 90 and at 30 degrees elevation. -/
noncomputable def tipS (sat : Bool) : Settings := { demoS with satellite := sat, cloudy := false }

theorem demo_level {G : Globals} {p t e f : ℝ} {i : ℕ} {r : ℝ × ℝ} (h : clearLevel demoA G none p t e f i = .ok r) :
    r = (0.182 * f * db2np, 0.182 * f * 2 * db2np) := by
  unfold clearLevel at h
  simp only at h
  split at h
  · have hn : n2Term demoA G.sel t ((p / 10.0 - e / 10.0) * 10) f = .ok 0 ∨
        n2Term demoA G.sel t ((p / 10.0 - e / 10.0) * 10) f = .error .valueError := by
      unfold n2Term
      split
      · exact Or.inr rfl
      · split_ifs
        · exact Or.inl rfl
        · exact Or.inl rfl
    have h1 : ∀ m l x v y f, demoA.h2o m l x v y f = .ok (1, 0) := fun _ _ _ _ _ _ => rfl
    have h2 : ∀ m l x v y f, demoA.o2 m l x v y f = .ok (2, 0) := fun _ _ _ _ _ _ => rfl
    have ho : o3Term demoA G none t p f i = .ok 0 := by simp [o3Term, ozoneActive]
    rcases hn with hn | hn
    · simp only [hn, ho, h1, h2, bind, Except.bind, pure, Except.pure, Except.ok.injEq] at h
      rw [← h]
      norm_num
    · simp only [hn, h1, h2, bind, Except.bind] at h
      cases h
  · cases h

theorem db2np_le : db2np ≤ 1 := by
  unfold db2np
  have := log_le_sub_one_of_pos (show (0:ℝ) < 10.0 by norm_num)
  norm_num at this ⊢
  linarith

theorem tip_opacity_le {sat : Bool} {k : ℕ} (hk : k < 2) {rows : List Row}
    (h : (execute demoA demoG ⟨tipS sat, Store.zero⟩).1 = .ok rows) {τ : Val}
    (ht : ((execute demoA demoG ⟨tipS sat, Store.zero⟩).2.out.cell 0 k).taulay = some τ) :
    opacityBelow τ 2 ≤ 49 := by
  obtain ⟨g1, e, rho, hl, -, -, hc⟩ := (execute_ok h).ex
  obtain ⟨es, q1, q2⟩ := (hc k hk).2 0 (show 0 < 2 by decide)
  obtain ⟨u, u1, u2, u3, -, -⟩ := (cellStep_ok q2).clear
  have hv := (tabulateE_ok u1).1
  have hu : ∀ i < 3, u i = (0.182 * 22 * db2np, 0.182 * 22 * 2 * db2np) := fun i hi => by
    have := demo_level (hv i hi)
    simpa [tipS, demoS] using this
  have hd : 0 < db2np := by
    unfold db2np
    have : 0 < log (10.0:ℝ) := log_pos (by norm_num)
    positivity
  have hd1 := db2np_le
  have ha := demo_angles k hk
  have key := clear_opacity_le h rfl (show 0 < 2 by decide) hk (show 0 < 3 by decide) ha.1 ha.2
    (fun i _ => by simp [tipS, demoS]) rfl (fun _ _ => ⟨rfl, rfl, rfl, rfl, rfl⟩) (a := 0.182 * 22) (b := 0.182 * 22 * 2)
    (fun i hi => by
      rw [u2]
      simp only [hu i hi]
      constructor
      · positivity
      · nlinarith)
    (fun i hi => by
      rw [u3]
      simp only [hu i hi]
      constructor
      · positivity
      · nlinarith) ht
  refine key.trans ?_
  have hs : 1 / 2 ≤ sin ((tipS sat).angles k * π / 180) := by
    have : k = 0 ∨ k = 1 := by omega
    rcases this with rfl | rfl
    · simp only [tipS, demoS]
      norm_num
      rw [show 90 * π / 180 = π / 2 by ring, sin_pi_div_two]
      norm_num
    · simp only [tipS, demoS]
      norm_num
      rw [show 30 * π / 180 = π / 6 by ring, sin_pi_div_six]
  have hp : 0 < sin ((tipS sat).angles k * π / 180) := by linarith
  simp only [tipS, demoS] at hs hp ⊢
  rw [div_mul_eq_mul_div, div_le_iff₀ hp]
  norm_num
  linarith

theorem tip_opacity {sat : Bool} {k : ℕ} (hk : k < 2) {rows : List Row}
    (h : (execute demoA demoG ⟨tipS sat, Store.zero⟩).1 = .ok rows) {τ : Val}
    (ht : ((execute demoA demoG ⟨tipS sat, Store.zero⟩).2.out.cell 0 k).taulay = some τ) :
    opacityBelow τ 2 < 125 :=
  (tip_opacity_le hk h ht).trans_lt (by norm_num)

theorem tip_runs (sat : Bool) : ∃ rows, (execute demoA demoG ⟨tipS sat, Store.zero⟩).1 = .ok rows :=
  demo_runs (tipS sat) Store.zero rfl (show 1 ≤ 3 by decide) (by simp [tipS, demoS]) (by simp [CloudInput, tipS]) rfl
    demo_angles

theorem tip_cooling (sat : Bool) : Cooling (tipS sat).nl (tipS sat).tk := by
  refine ⟨fun i hi => ?_, fun i _ => ?_⟩
  · have : (i : ℝ) < 3 := by exact_mod_cast (show i < 3 from hi)
    simp only [tipS, demoS]
    linarith
  · simp only [tipS, demoS]
    push_cast
    linarith

/-- A tipping measurement from the ground that meets the hypotheses of `C83_ground`. -/
example : ∃ Tlow Thigh, ((execute demoA demoG ⟨tipS false, Store.zero⟩).2.out.cell 0 1).tbtotal = some Tlow ∧
    ((execute demoA demoG ⟨tipS false, Store.zero⟩).2.out.cell 0 0).tbtotal = some Thigh ∧ Thigh ≤ Tlow := by
  obtain ⟨rows, h⟩ := tip_runs false
  exact C83_ground h rfl rfl (show 0 < 2 by decide) (show 1 < 2 by decide) (show 0 < 2 by decide)
    (by norm_num [tipS, demoS]) (by norm_num [tipS, demoS]) (by norm_num [tipS, demoS])
    (fun i _ => by simp [tipS, demoS]) (Or.inr fun _ _ => ⟨rfl, rfl, rfl, rfl, rfl⟩) (by norm_num [tipS, demoS])
    (tip_cooling false) (by norm_num [tipS, demoS]) (fun τ ht => tip_opacity (by decide) h ht)

/-- The same scene from above meets the hypotheses of `C83_satellite`. -/
example : ∃ Tlow Thigh, ((execute demoA demoG ⟨tipS true, Store.zero⟩).2.out.cell 0 1).tbtotal = some Tlow ∧
    ((execute demoA demoG ⟨tipS true, Store.zero⟩).2.out.cell 0 0).tbtotal = some Thigh ∧ Tlow ≤ Thigh := by
  obtain ⟨rows, h⟩ := tip_runs true
  exact C83_satellite h rfl rfl (show 0 < 2 by decide) (show 1 < 2 by decide) (show 0 < 2 by decide)
    (by norm_num [tipS, demoS]) (by norm_num [tipS, demoS]) (by norm_num [tipS, demoS])
    (fun i _ => by simp [tipS, demoS]) (Or.inr fun _ _ => ⟨rfl, rfl, rfl, rfl, rfl⟩) (by norm_num [tipS, demoS])
    (tip_cooling true) (by simp [tipS, demoS]) (fun τ ht => tip_opacity (by decide) h ht)

end angles

end Verif.Props
