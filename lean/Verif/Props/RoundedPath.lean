import Verif.Model.RoundedPath
import Verif.Props.RoundedRun

/-!
# C120: rounding errors of plane-parallel paths

Heights and an elevation angle to path lengths, and from there to the brightness temperature a run reports.
-/

namespace Verif.Props

open Verif.Model Verif.Py Verif.Spec Verif.Lemmas Real

variable {G : Trig} {u X : ℝ} {nl : ℕ}

/-- **C120.** With real arithmetic the paths are those of a run without ray tracing, for every angle. -/
theorem C120_same_program (S : Settings) (refi : Val) (k : ℕ) (hr : S.rayTracing = false) :
    pathOf S refi k = match Trig.exact.path S.z (S.angles k) with
      | none => .nonfinite
      | some d => .ok d := by
  unfold pathOf Trig.path Trig.amass npDiv
  rw [hr]
  show (match (if sin (S.angles k * π / 180) = 0 then none else some (1 / sin (S.angles k * π / 180))) with
    | none => Path.nonfinite
    | some amass => .ok fun i => if i = 0 then 0 else (S.z i - S.z (i - 1)) * amass) =
    match Option.map _ (if sin (S.angles k * π / 180) = 0 then none
      else some (1 / sin (S.angles k * π / 180))) with
    | none => Path.nonfinite
    | some d => .ok d
  split_ifs <;> rfl

theorem sin_near {x x' δ : ℝ} (x0 : 0 ≤ x) (x1 : x ≤ π / 2) (h : Arith.Near x' x δ) (d0 : 0 ≤ δ) :
    Arith.Near (sin x') (sin x) (1.6 * δ) := by
  refine Arith.near_of_abs ?_
  have l : |sin x' - sin x| ≤ |x' - x| := by
    have := lipschitzWith_sin.dist_le_mul x' x
    rwa [NNReal.coe_one, one_mul, Real.dist_eq, Real.dist_eq] at this
  have j := mul_le_sin x0 x1
  have p := pi_lt_d2
  have p0 := pi_pos
  have j2 : x ≤ 1.6 * sin x := by
    have e : x = π / 2 * (2 / π * x) := by field_simp
    have s0 : 0 ≤ 2 / π * x := by positivity
    calc x = π / 2 * (2 / π * x) := e
      _ ≤ 1.6 * (2 / π * x) := mul_le_mul_of_nonneg_right (by norm_num at p ⊢; linarith) s0
      _ ≤ 1.6 * sin x := mul_le_mul_of_nonneg_left j (by norm_num)
  have := mul_le_mul_of_nonneg_left j2 d0
  linarith [h.abs]

theorem amass_near (hG : G.Accurate u) (hu : 1e-30 ≤ u ∧ u ≤ 1e-15) {angle : ℝ} (a0 : 0 < angle)
    (a1 : angle ≤ 90) : ∃ m, G.amass angle = some m ∧ Arith.Near m (1 / sin (angle * π / 180)) (7.5 * u) := by
  have u0 : 0 ≤ u := le_trans (by norm_num) hu.1
  have u1 : u ≤ 1e-15 := hu.2
  have u2 : u ≤ 1 := u1.trans (by norm_num)
  have uu : u * u ≤ 1e-15 * u := mul_le_mul_of_nonneg_right u1 u0
  have n1 : Arith.Near G.pi π u := Arith.near_of_abs hG.pi
  have n2 := Arith.near_mul hG.ar (Arith.near_refl angle) n1 a0.le pi_pos.le le_rfl u0 zero_le_one u2 u0 u2
  have n3 := n2.mono (mul_nonneg a0.le pi_pos.le) (ε := 2.001 * u) (by norm_num at uu ⊢; nlinarith)
  have n4 := Arith.near_div hG.ar n3 (Arith.near_refl 180) (mul_nonneg a0.le pi_pos.le) (by norm_num)
    (by positivity) le_rfl (by norm_num at u1 ⊢; linarith) (by norm_num) u0 u2
  have x0 : 0 < angle * π / 180 := by positivity
  have x1 : angle * π / 180 ≤ π / 2 := by
    rw [div_le_div_iff₀ (by norm_num) (by norm_num)]
    have := mul_le_mul_of_nonneg_right a1 pi_pos.le
    linarith
  have n5 := n4.mono x0.le (ε := 3.002 * u) (by norm_num at uu ⊢; nlinarith)
  have s0 : 0 < sin (angle * π / 180) := sin_pos_of_pos_of_lt_pi x0 (by linarith [pi_pos])
  have n6 := sin_near x0.le x1 n5 (by positivity)
  set x' := G.ar.div (G.ar.mul angle G.pi) 180 with hx'
  have s1 : 0 < sin x' := n6.pos s0 (by norm_num at u1 ⊢; linarith)
  have n7 : Arith.Near (G.sin x') (sin x') u := by
    have := hG.sin x'
    rw [abs_of_pos s1] at this
    exact Arith.near_of_abs this
  have n8 := (n7.trans n6 s0.le u0 u2 (by positivity)).mono s0.le (ε := 5.81 * u) (by norm_num at uu ⊢; nlinarith)
  have s2 : 0 < G.sin x' := n8.pos s0 (by norm_num at u1 ⊢; linarith)
  refine ⟨G.ar.div 1 (G.sin x'), ?_, ?_⟩
  · unfold Trig.amass
    simp only
    rw [← hx', if_neg s2.ne']
  · exact (Arith.near_div hG.ar (Arith.near_refl 1) n8 zero_le_one s0 le_rfl (by positivity) zero_le_one
      (by norm_num at u1 ⊢; linarith) u0 u2).mono (by positivity) (by norm_num at uu ⊢; nlinarith)

/-- Exact path lengths at elevation `angle` degrees. -/
noncomputable def slantPath (z : ℕ → ℝ) (angle : ℝ) (i : ℕ) : ℝ :=
  if i = 0 then 0 else (z i - z (i - 1)) / sin (angle * π / 180)

/-- **C120.** Elevations up to 90 degrees: every path length is right up to ten units of roundoff. -/
theorem C120_path (hG : G.Accurate u) (hu : 1e-30 ≤ u ∧ u ≤ 1e-15) (z : ℕ → ℝ) {angle : ℝ} (a0 : 0 < angle)
    (a1 : angle ≤ 90) : ∃ d, G.path z angle = some d ∧ ∀ i, |d i - slantPath z angle i| ≤ 10 * u * |slantPath z angle i| := by
  obtain ⟨m, h, n⟩ := amass_near hG hu a0 a1
  have u0 : 0 ≤ u := le_trans (by norm_num) hu.1
  have u1 : u ≤ 1e-15 := hu.2
  refine ⟨_, by unfold Trig.path; rw [h]; rfl, fun i => ?_⟩
  unfold slantPath
  simp only
  split_ifs with h0
  · simp
  set D := z i - z (i - 1)
  set s := 1 / sin (angle * π / 180) with hs
  have e : D / sin (angle * π / 180) = D * s := by rw [hs]; ring
  rw [e]
  have x0 : 0 < angle * π / 180 := by positivity
  have s0 : 0 < sin (angle * π / 180) := sin_pos_of_pos_of_lt_pi x0 (by
    have := mul_le_mul_of_nonneg_right a1 pi_pos.le
    linarith [pi_pos])
  have sp : 0 < s := by rw [hs]; positivity
  set D' := G.ar.sub (z i) (z (i - 1)) with hD'
  have k1 : |D' - D| ≤ u * |D| := hG.ar.sub _ _
  have k2 : |m - s| ≤ 7.5 * u * s := n.abs
  have k3 : |G.ar.mul D' m - D' * m| ≤ u * |D' * m| := hG.ar.mul _ _
  have D0 := abs_nonneg D
  have b1 : |D'| ≤ (1 + u) * |D| := by
    have := abs_sub_abs_le_abs_sub D' D
    linarith
  have b2 : |m| ≤ (1 + 7.5 * u) * s := by
    have := abs_sub_abs_le_abs_sub m s
    rw [abs_of_pos sp] at this
    linarith
  have b3 : |D' * m| ≤ (1 + 9 * u) * (|D| * s) := by
    rw [abs_mul]
    have q := mul_le_mul b1 b2 (abs_nonneg m) (by positivity)
    have r : (1 + u) * (1 + 7.5 * u) ≤ 1 + 9 * u := by
      have : u * u ≤ 1e-15 * u := mul_le_mul_of_nonneg_right u1 u0
      norm_num at this ⊢; nlinarith
    have := mul_le_mul_of_nonneg_right r (mul_nonneg D0 sp.le)
    linarith
  have b4 : |D' * m - D * s| ≤ 8.6 * u * (|D| * s) := by
    have e : D' * m - D * s = (D' - D) * m + D * (m - s) := by ring
    rw [e]
    refine (abs_add_le _ _).trans ?_
    rw [abs_mul, abs_mul]
    have q1 := mul_le_mul k1 b2 (abs_nonneg m) (by positivity)
    have q2 := mul_le_mul_of_nonneg_left k2 D0
    have r : u * (1 + 7.5 * u) ≤ 1.1 * u := by
      have : u * u ≤ 1e-15 * u := mul_le_mul_of_nonneg_right u1 u0
      norm_num at this ⊢; nlinarith
    have := mul_le_mul_of_nonneg_right r (mul_nonneg D0 sp.le)
    norm_num at *
    linarith
  rw [abs_mul, abs_of_pos sp]
  have tri := abs_sub_le (G.ar.mul D' m) (D' * m) (D * s)
  have r : u * (1 + 9 * u) ≤ 1.1 * u := by
    have : u * u ≤ 1e-15 * u := mul_le_mul_of_nonneg_right u1 u0
    norm_num at this ⊢; nlinarith
  have r2 := mul_le_mul_of_nonneg_left b3 u0
  have r3 := mul_le_mul_of_nonneg_right r (mul_nonneg D0 sp.le)
  have r4 := mul_nonneg u0 (mul_nonneg D0 sp.le)
  norm_num at k3 b4 r2 r3 ⊢
  linarith

/-- The exact opacity of a layer is proportional to its path length. -/
theorem opacities_linear (hn : 0 < nl) {a : Arith.Profiles} (ha : Bounded nl a X) :
    ∃ c : ℕ → ℝ, (∀ i, 0 ≤ c i) ∧ ∀ ds, Arith.exact.opacities nl a ds =
      some fun i => if 1 ≤ i ∧ i < nl then c i * ds i else 0 := by
  have lin : ∀ (z : Bool) (x : ℕ → ℝ), (∀ i < nl, 0 ≤ x i) → ∃ v : ℕ → ℝ, (∀ i, 0 ≤ v i) ∧ ∀ ds, ∃ S,
      Arith.exact.expInt z nl x ds 1 nl 1 = some (.ok (S, fun i => if 1 ≤ i ∧ i < nl then v i * ds i else 0)) := by
    intro z x hx
    have ex : ∀ i, ∃ v, 0 ≤ v ∧ (1 ≤ i → i < nl → layerValue z (prevEntry x nl i) (x i) = some v) := by
      intro i
      by_cases hi : 1 ≤ i ∧ i < nl
      · have pe : prevEntry x nl i = x (i - 1) := by unfold prevEntry; rw [if_neg (by omega)]
        obtain ⟨v, hv⟩ := layerValue_some_of_nonneg z (hx (i - 1) (by omega)) (hx i hi.2)
        exact ⟨v, layerValue_nonneg hv, fun _ _ => by rw [pe]; exact hv⟩
      · exact ⟨0, le_rfl, fun h1 h2 => absurd ⟨h1, h2⟩ hi⟩
    choose v v0 hv using ex
    refine ⟨v, v0, fun ds => ⟨(∑ i ∈ Finset.Ico 1 nl, v i * ds i) * 1, ?_⟩⟩
    rw [C119_same_program, expInt_ok (v := v) hn hv]
  obtain ⟨w, w0, hw⟩ := lin true a.wet fun i hi => (ha i hi).1.1
  obtain ⟨d, d0, hd⟩ := lin true a.dry fun i hi => (ha i hi).2.1.1
  obtain ⟨c, c0, hc⟩ := lin false a.ice fun i hi => (ha i hi).2.2.1.1
  obtain ⟨l, l0, hl⟩ := lin false a.liq fun i hi => (ha i hi).2.2.2.1
  refine ⟨fun i => w i + d i + c i + l i, fun i => add_nonneg (add_nonneg (add_nonneg (w0 i) (d0 i)) (c0 i)) (l0 i),
    fun ds => ?_⟩
  obtain ⟨_, e1⟩ := hw ds
  obtain ⟨_, e2⟩ := hd ds
  obtain ⟨_, e3⟩ := hc ds
  obtain ⟨_, e4⟩ := hl ds
  unfold Arith.opacities
  rw [e1, e2, e3, e4]
  simp only [Arith.exact_add, Option.some.injEq]
  funext i
  split_ifs
  · ring
  · norm_num

/-- **C120.** Layer opacities from heights, elevation and absorption: what C119 gives for exact paths, and ten more
units of roundoff. -/
theorem C120_opacities (hG : G.Accurate u) (hu : 1e-30 ≤ u ∧ u ≤ 1e-15) (hs : X * u ≤ 1e-12)
    (hn : 0 < nl) {a : Arith.Profiles} (ha : Bounded nl a X) {z : ℕ → ℝ} {angle : ℝ} (a0 : 0 < angle)
    (a1 : angle ≤ 90) (hz : ∀ i, 1 ≤ i → i < nl → z (i - 1) ≤ z i) :
    ∃ d τ τ', G.path z angle = some d ∧ Arith.exact.opacities nl a (slantPath z angle) = some τ ∧
      G.ar.opacities nl a d = some τ' ∧
      ∀ i, 1 ≤ i → i < nl → 0 ≤ τ i ∧ 0 ≤ τ' i ∧
        |τ' i - τ i| ≤ (21 * u + 1.32e9 * (X * u)) * τ i + 5e-9 * slantPath z angle i := by
  obtain ⟨d, p1, p2⟩ := C120_path hG hu z a0 a1
  obtain ⟨c, c0, hc⟩ := opacities_linear hn ha
  have u0 : 0 ≤ u := le_trans (by norm_num) hu.1
  have u1 : u ≤ 1e-15 := hu.2
  have X0 : 0 ≤ X := (ha 0 hn).1.1.trans (ha 0 hn).1.2
  have sn : 0 < sin (angle * π / 180) := sin_pos_of_pos_of_lt_pi (by positivity) (by
    have := mul_le_mul_of_nonneg_right a1 pi_pos.le
    linarith [pi_pos])
  have s0 : ∀ i, 1 ≤ i → i < nl → 0 ≤ slantPath z angle i := fun i h1 h2 => by
    unfold slantPath
    rw [if_neg (by omega)]
    exact div_nonneg (by linarith [hz i h1 h2]) sn.le
  have near : ∀ i, 1 ≤ i → i < nl → Arith.Near (d i) (slantPath z angle i) (10 * u) := fun i h1 h2 => by
    have := p2 i
    rw [abs_of_nonneg (s0 i h1 h2)] at this
    exact Arith.near_of_abs this
  have d0 : ∀ i, 1 ≤ i → i < nl → 0 ≤ d i := fun i h1 h2 =>
    (near i h1 h2).nonneg (s0 i h1 h2) (by norm_num at u1 ⊢; linarith)
  obtain ⟨σ, τ', q1, q2, q3⟩ := C119_opacities hG.ar hu hs hn ha d0
  rw [hc d] at q1
  cases q1
  refine ⟨d, _, τ', p1, hc _, q2, fun i h1 h2 => ?_⟩
  obtain ⟨r1, r2, r3, -⟩ := q3 i h1 h2
  simp only [if_pos (And.intro h1 h2)] at r1 r3 ⊢
  have ci := c0 i
  have si := s0 i h1 h2
  have ab := (near i h1 h2).abs
  have up := (near i h1 h2).2
  have cs := mul_nonneg ci si
  refine ⟨cs, r2, ?_⟩
  have e1 : |c i * d i - c i * slantPath z angle i| ≤ 10 * u * (c i * slantPath z angle i) := by
    rw [← mul_sub, abs_mul, abs_of_nonneg ci]
    have := mul_le_mul_of_nonneg_left ab ci
    linarith
  have tri := abs_sub_le (τ' i) (c i * d i) (c i * slantPath z angle i)
  set κ := 10 * u + 1.31e9 * (X * u) with hκ
  have κ0 : 0 ≤ κ := by positivity
  have g1 : κ * (c i * d i) ≤ κ * ((1 + 10 * u) * (c i * slantPath z angle i)) := by
    refine mul_le_mul_of_nonneg_left ?_ κ0
    have := mul_le_mul_of_nonneg_left up ci
    linarith
  have g2 : κ * (1 + 10 * u) ≤ 10.5 * u + 1.32e9 * (X * u) := by
    have uu : u * u ≤ 1e-15 * u := mul_le_mul_of_nonneg_right u1 u0
    have uX : X * u * u ≤ X * u * 1e-15 := mul_le_mul_of_nonneg_left u1 (mul_nonneg X0 u0)
    have : 0 ≤ X * u := mul_nonneg X0 u0
    rw [hκ]
    norm_num at uu uX ⊢
    nlinarith
  have g3 := mul_le_mul_of_nonneg_right g2 cs
  have g4 : 4.9e-9 * d i ≤ 5e-9 * slantPath z angle i := by
    have : slantPath z angle i * (10 * u) ≤ slantPath z angle i * 1e-3 :=
      mul_le_mul_of_nonneg_left (by norm_num at u1 ⊢; linarith) si
    norm_num at up this ⊢
    linarith
  have g5 := mul_nonneg u0 cs
  norm_num at r3 e1 g1 g3 g4 ⊢
  linarith

/-- **C120.** Double precision, from heights, elevation, absorption and temperatures to the brightness temperature, both
viewing directions and any emissivity. -/
theorem C120_tb (hG : G.Accurate (2 ^ (-52 : ℤ))) {frq es M : ℝ} {t z : ℕ → ℝ} {s : Bool} {angle : ℝ}
    {a : Arith.Profiles} (h1 : 1 ≤ frq) (h2 : frq ≤ 1000) (hes : 0 ≤ es ∧ es ≤ 1) (hn : 0 < nl)
    (hn1 : nl ≤ 1001) (hM : M ≤ 350) (hT : ∀ i < nl, 2.728 ≤ t i ∧ t i ≤ M)
    (ha : Bounded nl a X) (hX : X ≤ 4000) (a0 : 0 < angle) (a1 : angle ≤ 90)
    (hz : ∀ i, 1 ≤ i → i < nl → z (i - 1) ≤ z i) {L : ℝ}
    (hL : L = (z (nl - 1) - z 0) / sin (angle * π / 180)) (hL1 : L ≤ 1e6) {τ : ℕ → ℝ}
    (hτ : Arith.exact.opacities nl a (slantPath z angle) = some τ)
    (hop : opacityBelow τ (nl - 1) ≤ 124) {E : ℝ}
    (hE : E = (5e-15 + 3e-7 * X) * opacityBelow τ (nl - 1) + 5e-9 * L)
    {T : ℝ} (hTb : Arith.exact.tbProfile s es frq nl t a (slantPath z angle) = some T)
    (hlow : hvkOf frq + M / 0.9 * E ≤ T) :
    ∃ T', G.tbSlant s es frq nl z t a angle = some T' ∧ |T' - T| ≤ 5e-7 + M / 0.9 * E := by
  have X0 : 0 ≤ X := (ha 0 hn).1.1.trans (ha 0 hn).1.2
  have uX : X * (2:ℝ) ^ (-52 : ℤ) ≤ 1e-12 := by norm_num; linarith
  obtain ⟨d, τ₀, τ', p1, q1, q2, q3⟩ := C120_opacities hG (by norm_num) uX hn ha a0 a1 hz
  rw [hτ] at q1
  cases q1
  have len : opacityBelow (slantPath z angle) (nl - 1) = L := by
    unfold opacityBelow
    rw [Finset.sum_congr rfl (g := fun i => 1 / sin (angle * π / 180) * (z i - z (i - 1)))]
    · rw [telescope, hL]; ring
    · intro i hi
      rw [Finset.mem_Icc] at hi
      unfold slantPath
      rw [if_neg (by omega)]; ring
  have err := error_sum (n := nl - 1) (e := 5e-9) (d := slantPath z angle) (fun i k1 k2 => (q3 i k1 (by omega)).2.2)
  rw [len] at err
  have τ0 : 0 ≤ opacityBelow τ (nl - 1) := Finset.sum_nonneg fun i hi => by
    rw [Finset.mem_Icc] at hi; exact (q3 i hi.1 (by omega)).1
  have dif := (opacity_diff τ τ' (nl - 1)).trans err
  set κ := 21 * (2:ℝ) ^ (-52 : ℤ) + 1.32e9 * (X * (2:ℝ) ^ (-52 : ℤ)) with hκ
  have κ1 : κ ≤ 5e-15 + 3e-7 * X := by rw [hκ]; norm_num; linarith
  have κ2 : κ ≤ 1.3e-3 := by rw [hκ]; norm_num; linarith
  have hop' : opacityBelow τ' (nl - 1) < 125 := by
    have k1 := mul_le_mul_of_nonneg_right κ2 τ0
    have := (abs_le.1 dif).2
    norm_num at *
    linarith
  have E1 : opacityError (nl - 1) τ τ' ≤ E := by
    rw [hE]
    exact err.trans (by have := mul_le_mul_of_nonneg_right κ1 τ0; linarith)
  unfold Trig.tbSlant
  rw [p1]
  show ∃ T', G.ar.tbProfile s es frq nl t a d = some T' ∧ _
  unfold Arith.tbProfile at hTb ⊢
  rw [hτ] at hTb
  rw [q2]
  exact tb_perturbed hG.ar h1 h2 hes hn hn1 hM hT (fun i k1 k2 => ⟨(q3 i k1 k2).1, (q3 i k1 k2).2.1⟩) hop hop' E1
    hTb hlow

theorem planePath_eq (S : Settings) (k : ℕ) : planePath S k = slantPath S.z (S.angles k) := by
  funext i
  unfold planePath slantPath
  split_ifs
  · rfl
  · ring

section run

variable {A : AbsRoutines} {g : Globals} {I : Inst} {rows : List Row}

/-- **C120.** What a clear plane-parallel run reports, and what double precision makes of its heights, its angle, its
temperatures and the absorption it stores. -/
theorem C120_run (hG : G.Accurate (2 ^ (-52 : ℤ))) (h : (execute A g I).1 = .ok rows)
    (hr : I.set.rayTracing = false) {j k : ℕ} (hj : j < I.set.nf) (hk : k < I.set.nang)
    (hn : 0 < I.set.nl) (hn1 : I.set.nl ≤ 1001) (ha : 0 < I.set.angles k) (hb : I.set.angles k ≤ 90)
    (hz : ∀ i, i + 1 < I.set.nl → I.set.z i ≤ I.set.z (i + 1))
    (hcl : I.set.cloudy = false) (hst : NoClouds I.out)
    (h1 : 1 ≤ I.set.frq j) (h2 : I.set.frq j ≤ 1000)
    {es : ℝ} (hes : I.set.es[j]? = some es) (hes1 : 0 ≤ es ∧ es ≤ 1)
    {M X : ℝ} (hM : M ≤ 350) (hT : ∀ i < I.set.nl, 2.728 ≤ I.set.tk i ∧ I.set.tk i ≤ M) (hX : X ≤ 4000)
    (hw : ∀ i < I.set.nl, 0 ≤ ((execute A g I).2.out.cell j k).awet i ∧
      ((execute A g I).2.out.cell j k).awet i ≤ X)
    (hy : ∀ i < I.set.nl, 0 ≤ ((execute A g I).2.out.cell j k).adry i ∧
      ((execute A g I).2.out.cell j k).adry i ≤ X)
    {L E T τs : ℝ} (hL : L = (I.set.z (I.set.nl - 1) - I.set.z 0) / sin (I.set.angles k * π / 180))
    (hL1 : L ≤ 1e6) {τ : Val} (hτ : ((execute A g I).2.out.cell j k).taulay = some τ)
    (hτs : τs = opacityBelow τ (I.set.nl - 1)) (hop : τs ≤ 124)
    (hE : E = (5e-15 + 3e-7 * X) * τs + 5e-9 * L)
    (hTb : ((execute A g I).2.out.cell j k).tbtotal = some T)
    (hlow : hvkOf (I.set.frq j) + M / 0.9 * E ≤ T) :
    ∃ T', G.tbSlant I.set.satellite es (I.set.frq j) I.set.nl I.set.z I.set.tk
        ⟨((execute A g I).2.out.cell j k).awet, ((execute A g I).2.out.cell j k).adry,
          fun _ => 0, fun _ => 0⟩ (I.set.angles k) = some T' ∧ |T' - T| ≤ 5e-7 + M / 0.9 * E := by
  have hs := sin_pos_of_angle ha (by linarith)
  obtain ⟨es', τ', q1, q2, q3, q4⟩ := C119_run h hr hj hk hn hs.ne' hcl hst
  rw [hes] at q1; cases q1
  rw [hτ] at q3; cases q3
  rw [hTb] at q4
  rw [planePath_eq] at q2 q4
  have X0 : 0 ≤ X := (hw 0 hn).1.trans (hw 0 hn).2
  exact C120_tb hG h1 h2 hes1 hn hn1 hM hT (X := X)
    (fun i hi => ⟨hw i hi, hy i hi, ⟨le_rfl, X0⟩, ⟨le_rfl, X0⟩⟩) hX ha hb (fun i k1 k2 => by
      have := hz (i - 1) (by omega)
      rwa [show i - 1 + 1 = i by omega] at this) hL hL1 q2 (by rw [← hτs]; exact hop) (by rw [← hτs]; exact hE)
    q4.symm hlow

end run

/-- Double precision accuracy in all operations, but `π` a little too small, as `np.pi` is. -/
noncomputable def shortPi : Trig := { Trig.exact with pi := π * (1 - 2 ^ (-54 : ℤ)) }

theorem shortPi_accurate : shortPi.Accurate (2 ^ (-52 : ℤ)) := by
  have z : ∀ x : ℝ, |x - x| ≤ 2 ^ (-52 : ℤ) * |x| := fun x => by
    rw [sub_self, abs_zero]; positivity
  refine ⟨⟨fun a b => z _, fun a b => z _, fun a b => z _, fun a b _ => z _, fun a => ?_,
    fun a _ => z _, fun a => z _⟩, fun a => z _, ?_⟩
  · have := z (Real.exp a)
    rwa [abs_of_pos (Real.exp_pos a)] at this
  · show |π * (1 - 2 ^ (-54 : ℤ)) - π| ≤ _
    have e : π * (1 - 2 ^ (-54 : ℤ)) - π = -(2 ^ (-54 : ℤ) * π) := by ring
    rw [e, abs_neg, abs_of_pos (by positivity)]
    exact mul_le_mul_of_nonneg_right (by norm_num) pi_pos.le

/-- **C120.** The elevation 180 degrees has no path in real arithmetic, but one of more than `5·10¹⁵` times the layer
thickness in double precision: the bound of `C120_path` ends before the opposite horizon. -/
theorem C120_horizon (z : ℕ → ℝ) (h : z 0 < z 1) : Trig.exact.path z 180 = none ∧
    ∃ d, shortPi.path z 180 = some d ∧ 5e15 * (z 1 - z 0) ≤ d 1 := by
  have e1 : (180 : ℝ) * π / 180 = π := by ring
  constructor
  · unfold Trig.path Trig.amass
    show Option.map _ (if sin (180 * π / 180) = 0 then none else _) = none
    rw [e1, if_pos sin_pi]
    rfl
  · set ε : ℝ := π * 2 ^ (-54 : ℤ) with hε
    have ε0 : 0 < ε := by positivity
    have ε1 : ε ≤ 1.8e-16 := by
      have := pi_lt_d2
      rw [hε]; norm_num at this ⊢; linarith
    have e2 : (180 : ℝ) * (π * (1 - 2 ^ (-54 : ℤ))) / 180 = π - ε := by rw [hε]; ring
    have s0 : 0 < sin ε := sin_pos_of_pos_of_lt_pi ε0 (by
      have := pi_gt_three
      norm_num at ε1; linarith)
    have s1 : sin ε ≤ ε := sin_le ε0.le
    have am : shortPi.amass 180 = some (1 / sin ε) := by
      unfold Trig.amass
      show (if sin (180 * (π * (1 - 2 ^ (-54 : ℤ))) / 180) = 0 then none
        else some (1 / sin (180 * (π * (1 - 2 ^ (-54 : ℤ))) / 180))) = _
      rw [e2, sin_pi_sub, if_neg s0.ne']
    refine ⟨_, by unfold Trig.path; rw [am]; rfl, ?_⟩
    show 5e15 * (z 1 - z 0) ≤ (if (1:ℕ) = 0 then 0 else (z 1 - z (1 - 1)) * (1 / sin ε))
    rw [if_neg one_ne_zero, mul_comm]
    refine mul_le_mul_of_nonneg_left ?_ (by linarith)
    rw [le_div_iff₀ s0]
    norm_num at ε1 ⊢
    linarith

/-- Levels 1 km apart seen at 30 degrees: 2 km of path each. -/
example : ∃ d, shortPi.path (fun i => (i : ℝ)) 30 = some d ∧ ∀ i, 1 ≤ i → |d i - 2| ≤ 1e-14 := by
  obtain ⟨d, h1, h2⟩ := C120_path shortPi_accurate (by norm_num) (fun i => (i : ℝ)) (angle := 30) (by norm_num)
    (by norm_num)
  refine ⟨d, h1, fun i hi => ?_⟩
  have := h2 i
  have e : slantPath (fun i => (i : ℝ)) 30 i = 2 := by
    unfold slantPath
    rw [if_neg (by omega), show (30:ℝ) * π / 180 = π / 6 by ring, sin_pi_div_six]
    simp only [Nat.cast_sub hi]
    norm_num
  rw [e] at this
  refine this.trans ?_
  norm_num

/-- The scene `flat` of C119 with levels 1 km apart, at the zenith, from the ground. -/
example : ∃ T T', Arith.exact.tbProfile false 1 50 4 (fun _ => 280) flat (slantPath (fun i => (i : ℝ)) 90) = some T ∧
    shortPi.tbSlant false 1 50 4 (fun i => (i : ℝ)) (fun _ => 280) flat 90 = some T' ∧ |T' - T| ≤ 1e-3 := by
  have s1 : sin ((90 : ℝ) * π / 180) = 1 := by rw [show (90:ℝ) * π / 180 = π / 2 by ring, sin_pi_div_two]
  obtain ⟨d, τ, -, -, q1, -, q3⟩ := C120_opacities shortPi_accurate (X := 1) (z := fun i => (i : ℝ)) (angle := 90)
    (by norm_num) (by norm_num) (by norm_num) flat_bounded (by norm_num) le_rfl (fun i h1 _ => by
      rw [Nat.cast_sub h1]; norm_num)
  obtain ⟨σ, r1, r2, r3⟩ := flat_opacities
  have sl : ∀ i, 1 ≤ i → slantPath (fun i => (i : ℝ)) 90 i = 1 := fun i hi => by
    unfold slantPath
    rw [if_neg (by omega), s1]
    simp only [Nat.cast_sub hi]
    norm_num
  have eq : ∀ i, 1 ≤ i → i < 4 → τ i = 0.3 := by
    obtain ⟨c, -, hc⟩ := opacities_linear (nl := 4) (by norm_num) flat_bounded
    intro i h1 h2
    rw [hc] at q1 r1
    cases q1
    cases r1
    have := r3 i h1 (by omega)
    simp only [if_pos (And.intro h1 h2), sl i h1] at this ⊢
    exact this
  have τs : opacityBelow τ (4 - 1) = 0.9 := by
    unfold opacityBelow
    rw [Finset.sum_congr rfl (fun i hi => eq i (Finset.mem_Icc.1 hi).1 (by have := (Finset.mem_Icc.1 hi).2; omega))]
    norm_num
  obtain ⟨out, ho⟩ := planck_exists (s := false) (es := 1) (frq := 50) (nl := 4) (t := fun _ => 280) (τ := τ)
    (by norm_num)
  obtain ⟨T, k1, k2, -⟩ := C04_downwelling_between (m := 2.728) (M := 280) (by norm_num)
      (by norm_num) le_rfl (by norm_num) (fun i hi => ⟨by norm_num, le_rfl⟩)
      (fun i h1 h2 => by rw [eq i h1 (by omega)]; norm_num) (by rw [τs]; norm_num) ho
  have hT : Arith.exact.tbProfile false 1 50 4 (fun _ => 280) flat (slantPath (fun i => (i : ℝ)) 90) = some T := by
    unfold Arith.tbProfile
    rw [q1]
    show Arith.exact.tbtotal false 1 50 4 _ τ = some T
    rw [C118_same_program, ho]; exact k1
  have hk : hvkOf 50 ≤ 2.4 := by norm_num [hvkOf, cPlanck, cBoltzmann]
  obtain ⟨T', g1, g2⟩ := C120_tb (M := 280) (X := 1) (L := 3) (E := (5e-15 + 3e-7 * 1) * 0.9 + 5e-9 * 3)
    (z := fun i => (i : ℝ)) (angle := 90)
    shortPi_accurate (by norm_num) (by norm_num) ⟨zero_le_one, le_rfl⟩ (by norm_num) (by norm_num) (by norm_num)
    (fun i hi => ⟨by norm_num, le_rfl⟩) flat_bounded (by norm_num) (by norm_num) le_rfl
    (fun i h1 _ => by rw [Nat.cast_sub h1]; norm_num) (by rw [s1]; norm_num) (by norm_num) q1
    (by rw [τs]; norm_num) (by rw [τs]) hT (by norm_num at hk k2 ⊢; linarith)
  exact ⟨T, T', hT, g1, g2.trans (by norm_num)⟩

/-- The scene of C83 seen from above meets the hypotheses of `C120_run`. -/
example : ∃ T T', ((execute demoA demoG ⟨tipS true, Store.zero⟩).2.out.cell 0 0).tbtotal = some T ∧
    shortPi.tbSlant true 1 22 3 (tipS true).z (tipS true).tk
      ⟨((execute demoA demoG ⟨tipS true, Store.zero⟩).2.out.cell 0 0).awet,
        ((execute demoA demoG ⟨tipS true, Store.zero⟩).2.out.cell 0 0).adry, fun _ => 0, fun _ => 0⟩
      ((tipS true).angles 0) = some T' ∧ |T' - T| ≤ 0.05 := by
  obtain ⟨rows, h⟩ := tip_runs true
  have ha := demo_angles 0 (show 0 < 2 by decide)
  have hs := sin_pos_of_angle ha.1 ha.2
  have cl : NoClouds (⟨tipS true, Store.zero⟩ : Inst).out := fun _ _ => ⟨rfl, rfl, rfl, rfl, rfl⟩
  have hz : ∀ i, i + 1 < (tipS true).nl → (tipS true).z i ≤ (tipS true).z (i + 1) := fun i _ => by
    simp [tipS, demoS]
  have fr : (tipS true).frq 0 = 22 := by simp [tipS, demoS]
  have tk : ∀ i < 3, 298 ≤ (tipS true).tk i ∧ (tipS true).tk i ≤ 300 := fun i hi => by
    have : (i : ℝ) ≤ 2 := by exact_mod_cast (by omega : i ≤ 2)
    have : (0:ℝ) ≤ i := Nat.cast_nonneg i
    constructor <;> simp only [tipS, demoS] <;> linarith
  obtain ⟨es, τ, -, -, q3, -⟩ := C119_run h rfl (show 0 < 2 by decide) (show 0 < 2 by decide)
    (show 0 < 3 by decide) hs.ne' rfl cl
  have op := tip_opacity_le (by decide) h q3
  obtain ⟨T, t1, t2, t3⟩ := C26_satellite h (j := 0) (k := 0) (show 0 < 2 by decide) (show 0 < 2 by decide)
    (goodPath_plane rfl ha.1 ha.2 hz) (Or.inr fun _ _ => ⟨_, _, rfl, rfl, fun _ => le_rfl, fun _ => le_rfl⟩) rfl
    (by simp [tipS, demoS]) (by rw [fr]; norm_num) (m := 298) (M := 300) (by norm_num) tk
    (fun w y l i e1 e2 e3 e4 => by
      refine lt_of_le_of_lt (tip_opacity_le (sat := true) (k := 0) (by decide) h ?_) (by norm_num)
      simp only [Cell.taulay, e1, e2, e3, e4])
  have hL : (2:ℝ) = ((tipS true).z (3 - 1) - (tipS true).z 0) / sin ((tipS true).angles 0 * π / 180) := by
    simp only [tipS, demoS]
    norm_num
    rw [show 90 * π / 180 = π / 2 by ring, sin_pi_div_two]
    norm_num
  have hE : (5e-15 + 3e-7 * 9) * opacityBelow τ 2 + 5e-9 * 2 ≤ (1.4e-4:ℝ) := by
    norm_num at op ⊢; linarith
  have hk : hvkOf 22 ≤ 2.4 := by norm_num [hvkOf, cPlanck, cBoltzmann]
  obtain ⟨T', g1, g2⟩ := C120_run (M := 300) (X := 9) (L := 2) (es := 1) shortPi_accurate h rfl
    (show 0 < 2 by decide) (show 0 < 2 by decide) (show 0 < 3 by decide) (show 3 ≤ 1001 by decide) ha.1 (by norm_num [tipS, demoS]) hz rfl cl
    (by rw [fr]; norm_num) (by rw [fr]; norm_num) (by simp [tipS, demoS]) ⟨zero_le_one, le_rfl⟩ (by norm_num)
    (fun i hi => ⟨le_trans (by norm_num) (tk i hi).1, (tk i hi).2⟩) (by norm_num)
    (fun i hi => (tip_absorption (by decide) h i hi).1) (fun i hi => (tip_absorption (by decide) h i hi).2)
    hL (by norm_num) q3 rfl (op.trans (by norm_num)) rfl t1
    (by
      show hvkOf ((tipS true).frq 0) + 300 / 0.9 * ((5e-15 + 3e-7 * 9) * opacityBelow τ 2 + 5e-9 * 2) ≤ T
      rw [fr]
      norm_num at hk t2 hE ⊢
      linarith)
  refine ⟨T, T', t1, ?_, ?_⟩
  · rw [← fr]; exact g1
  · have e : (⟨tipS true, Store.zero⟩ : Inst).set.nl - 1 = 2 := rfl
    rw [e] at g2
    norm_num at g2 hE ⊢
    linarith

end Verif.Props
