import Verif.Props.RoundedRun
import Verif.Props.History
import Verif.Props.CloudEffect

/-!
# C119: rounding errors of cloudy and of refracted runs

As `Props/RoundedRun.lean`, for any path with finite lengths and with the absorption of clouds.
-/

namespace Verif.Props

open Verif.Model Verif.Py Verif.Spec Verif.Lemmas Real

variable {A : AbsRoutines} {g : Globals} {I : Inst} {rows : List Row} {F : Arith}

/-- The path lengths a run uses for one angle. -/
def RunPath (S : Settings) (k : ℕ) (ds : ℕ → ℝ) : Prop :=
  ∃ e rho, vapor S.tk S.rh S.ice = .ok (e, rho) ∧
    pathOf S (fun i => (refractivity1 (S.p i) (S.tk i) (e i)).2.2) k = .ok ds

/-- The absorption profiles a run uses: those it stores for gases, those of the cloud routines for a cloudy run. -/
structure RunProfiles (A : AbsRoutines) (g : Globals) (I : Inst) (j k : ℕ) (a : Arith.Profiles) : Prop where
  wet : a.wet = ((execute A g I).2.out.cell j k).awet
  dry : a.dry = ((execute A g I).2.out.cell j k).adry
  cloudy : I.set.cloudy = true → ∃ dl di b, I.set.dens = some (dl, di) ∧
    cloudyAbs A g.sel.liq I.set.nl I.set.tk dl di (I.set.frq j) = .ok b ∧
    a.liq = (fun i => (b i).1) ∧ a.ice = fun i => (b i).2
  clear : I.set.cloudy = false → a.liq = (fun _ => 0) ∧ a.ice = fun _ => 0

/-- **C119.** The brightness temperature of any run, clear or cloudy, along straight or refracted paths, in either
viewing direction, is the exact value of the program that `C119_any` is about. -/
theorem C119_every_run (h : (execute A g I).1 = .ok rows) {j k : ℕ} (hj : j < I.set.nf) (hk : k < I.set.nang)
    (hn : 0 < I.set.nl) {ds : ℕ → ℝ} (hp : RunPath I.set k ds) (hst : I.set.cloudy = true ∨ NoClouds I.out) :
    ∃ es a τ, I.set.es[j]? = some es ∧ RunProfiles A g I j k a ∧
      Arith.exact.opacities I.set.nl a ds = some τ ∧ ((execute A g I).2.out.cell j k).taulay = some τ ∧
      ((execute A g I).2.out.cell j k).tbtotal =
        Arith.exact.tbProfile I.set.satellite es (I.set.frq j) I.set.nl I.set.tk a ds := by
  obtain ⟨g1, e, rho, hl, hv, -, hc⟩ := (execute_ok h).ex
  obtain ⟨e', rho', p1, p2⟩ := hp
  rw [hv] at p1; cases p1
  obtain ⟨es, q1, q2⟩ := (hc k hk).2 j hj
  rw [p2] at q2
  have c1 := cellStep_ok q2
  obtain ⟨u, -, a2, a3, a4, a5⟩ := c1.clear
  obtain ⟨w, hw⟩ := integ_some a4
  obtain ⟨d, hd⟩ := integ_some a5
  rw [hw] at a4
  rw [hd] at a5
  obtain ⟨r, hr1⟩ := integ_run a4
  obtain ⟨r', hr2⟩ := integ_run a5
  have sel : g1.sel = g.sel := by
    have := initLineList_keeps (A := A) g
    rw [hl] at this
    exact this.1
  have main : ∃ a : Arith.Profiles, ∃ l i : ℕ → ℝ, ∃ rl ri : ℝ, RunProfiles A g I j k a ∧
      ((execute A g I).2.out.cell j k).ptauliq = some l ∧ ((execute A g I).2.out.cell j k).ptauice = some i ∧
      Arith.exact.expInt false I.set.nl a.liq ds 1 I.set.nl 1 = some (.ok (rl, l)) ∧
      Arith.exact.expInt false I.set.nl a.ice ds 1 I.set.nl 1 = some (.ok (ri, i)) := by
    cases hcl : I.set.cloudy with
    | true =>
      obtain ⟨dl, di, b, b1, b2, b3, b4⟩ := c1.cloud hcl
      obtain ⟨l, hl1⟩ := integ_some b3
      obtain ⟨i, hi1⟩ := integ_some b4
      rw [hl1] at b3
      rw [hi1] at b4
      obtain ⟨s, hs1⟩ := integ_run b3
      obtain ⟨s', hs2⟩ := integ_run b4
      rw [cellGlobals_sel] at b2
      refine ⟨⟨fun i => (u i).1, fun i => (u i).2, fun i => (b i).2, fun i => (b i).1⟩, l, i, s, s',
        ⟨a2.symm, a3.symm, fun _ => ⟨dl, di, b, b1, ?_, rfl, rfl⟩, fun q => ?_⟩, hl1, hi1, hs1, hs2⟩
      · rw [← sel]; exact b2
      · rw [hcl] at q; cases q
    | false =>
      have nc := hst.resolve_left (by rw [hcl]; exact Bool.false_ne_true)
      have t1 := c1.stale hcl
      refine ⟨⟨fun i => (u i).1, fun i => (u i).2, fun _ => 0, fun _ => 0⟩, fun _ => 0, fun _ => 0, 0, 0,
        ⟨a2.symm, a3.symm, fun q => ?_, fun _ => ⟨rfl, rfl⟩⟩, t1.ptauliq.symm.trans (nc j k).1,
        t1.ptauice.symm.trans (nc j k).2, ?_, ?_⟩
      · rw [hcl] at q; cases q
      · rw [C119_same_program, zero_expInt hn]
      · rw [C119_same_program, zero_expInt hn]
  obtain ⟨a, l, i, rl, ri, ra, l1, i1, l2, i2⟩ := main
  have tl : ((execute A g I).2.out.cell j k).taulay = some fun n => w n + d n + i n + l n := by
    simp only [Cell.taulay, hw, hd, l1, i1]
  have op : Arith.exact.opacities I.set.nl a ds = some fun n => w n + d n + i n + l n := by
    unfold Arith.opacities
    rw [ra.wet, ra.dry, a2, a3, hr1, hr2, l2, i2]
    rfl
  refine ⟨es, a, _, q1, ra, op, tl, ?_⟩
  obtain ⟨out, o1, o2, -⟩ := c1.rad _ tl
  rw [cellGlobals_emissivity, cellGlobals_fromSat] at o1
  unfold Arith.tbProfile
  rw [op, o2]
  show _ = Arith.exact.tbtotal _ _ _ _ _ _
  rw [C118_same_program, o1]
  rfl

/-- **C119.** What double precision makes of the absorption, path lengths and temperatures of any run: the brightness
temperature of the run up to the error of `C119_any`. -/
theorem C119_every_run_error (hF : F.Accurate (2 ^ (-52 : ℤ))) (h : (execute A g I).1 = .ok rows) {j k : ℕ}
    (hj : j < I.set.nf) (hk : k < I.set.nang) (hn : 0 < I.set.nl) (hn1 : I.set.nl ≤ 1001) {ds : ℕ → ℝ}
    (hp : RunPath I.set k ds) (hd : ∀ i, 1 ≤ i → i < I.set.nl → 0 ≤ ds i)
    (hL : opacityBelow ds (I.set.nl - 1) ≤ 1e6) (hst : I.set.cloudy = true ∨ NoClouds I.out)
    (h1 : 1 ≤ I.set.frq j) (h2 : I.set.frq j ≤ 1000) {es : ℝ} (hes : I.set.es[j]? = some es)
    (hes1 : 0 ≤ es ∧ es ≤ 1) {M X : ℝ} (hM : M ≤ 350)
    (hT : ∀ i < I.set.nl, 2.728 ≤ I.set.tk i ∧ I.set.tk i ≤ M) (hX : X ≤ 4000)
    (ha : ∀ a, RunProfiles A g I j k a → Bounded I.set.nl a X)
    {E T τs : ℝ} {τ : Val} (hτ : ((execute A g I).2.out.cell j k).taulay = some τ)
    (hτs : τs = opacityBelow τ (I.set.nl - 1)) (hop : τs ≤ 124)
    (hE : E = (2.3e-15 + 3e-7 * X) * τs + 4.9e-9 * opacityBelow ds (I.set.nl - 1))
    (hTb : ((execute A g I).2.out.cell j k).tbtotal = some T)
    (hlow : hvkOf (I.set.frq j) + M / 0.9 * E ≤ T) :
    ∃ a T', RunProfiles A g I j k a ∧
      F.tbProfile I.set.satellite es (I.set.frq j) I.set.nl I.set.tk a ds = some T' ∧
      |T' - T| ≤ 5e-7 + M / 0.9 * E := by
  obtain ⟨es', a, τ', q1, q2, q3, q4, q5⟩ := C119_every_run h hj hk hn hp hst
  rw [hes] at q1; cases q1
  rw [hτ] at q4; cases q4
  rw [hTb] at q5
  obtain ⟨T', r1, r2⟩ := C119_any hF h1 h2 hes1 hn hn1 hM hT (ha a q2) hX hd hL q3 (by rw [← hτs]; exact hop)
    (by rw [← hτs]; exact hE) q5.symm hlow
  exact ⟨a, T', q2, r1, r2⟩

/-- The overcast scene of C116 seen from above meets the hypotheses. -/
example : ∃ a T T', RunProfiles demoA demoG ⟨overcastS true, Store.zero⟩ 0 0 a ∧
    ((execute demoA demoG ⟨overcastS true, Store.zero⟩).2.out.cell 0 0).tbtotal = some T ∧
    shaved.tbProfile true 1 ((overcastS true).frq 0) 3 (overcastS true).tk a (planePath (overcastS true) 0) = some T' ∧
    |T' - T| ≤ 0.05 := by
  obtain ⟨rows, h⟩ := overcast_runs true
  have ha := demo_angles 0 (show 0 < 2 by decide)
  have hs := sin_pos_of_angle ha.1 ha.2
  have fr : (overcastS true).frq 0 = 22 := by simp [overcastS, tipS, demoS]
  have hz : ∀ i, i + 1 < (overcastS true).nl → (overcastS true).z i ≤ (overcastS true).z (i + 1) := fun i _ => by
    simp [overcastS, tipS, demoS]
  have tk : ∀ i < 3, 298 ≤ (overcastS true).tk i ∧ (overcastS true).tk i ≤ 300 := fun i hi => by
    have : (i : ℝ) ≤ 2 := by exact_mod_cast (by omega : i ≤ 2)
    have : (0:ℝ) ≤ i := Nat.cast_nonneg i
    constructor <;> simp only [overcastS, tipS, demoS] <;> linarith
  obtain ⟨g1, e, rho, -, hv, -, -⟩ := (execute_ok h).ex
  have path : RunPath (overcastS true) 0 (planePath (overcastS true) 0) :=
    ⟨e, rho, hv, pathOf_plane rfl hs.ne'⟩
  have one (i : ℕ) (h0 : i ≠ 0) : planePath (overcastS true) 0 i = 1 := by
    unfold planePath
    rw [if_neg h0]
    simp only [overcastS, tipS, demoS]
    rw [Nat.cast_sub (by omega)]
    norm_num
    rw [show 90 * π / 180 = π / 2 by ring, sin_pi_div_two]
  have len : opacityBelow (planePath (overcastS true) 0) 2 = 2 := by
    unfold opacityBelow
    rw [Finset.sum_Icc_succ_top (by omega), Finset.sum_Icc_succ_top (by omega)]
    simp only [Finset.Icc_eq_empty_of_lt (show 0 < 1 by decide), Finset.sum_empty]
    rw [one _ (by decide), one _ (by decide)]
    norm_num
  obtain ⟨es, a, τ, q1, q2, q3, q4, q5⟩ := C119_every_run h (show 0 < 2 by decide) (show 0 < 2 by decide)
    (show 0 < 3 by decide) path (Or.inl rfl)
  have op := overcast_opacity_le (show 0 < 2 by decide) q4
  have bound : ∀ a, RunProfiles demoA demoG ⟨overcastS true, Store.zero⟩ 0 0 a → Bounded 3 a 9 := by
    intro a ra i hi
    obtain ⟨es, -, q2⟩ := ((execute_ok h).ex.choose_spec.choose_spec.choose_spec.2.2.2 0 (show 0 < 2 by decide)).2 0
      (show 0 < 2 by decide)
    obtain ⟨u, u1, u2, u3, -, -⟩ := (cellStep_ok q2).clear
    have hu : u i = (0.182 * 22 * db2np, 0.182 * 22 * 2 * db2np) := by
      have := demo_level ((tabulateE_ok u1).1 i hi)
      simpa [overcastS, tipS, demoS] using this
    have hd : 0 < db2np := by
      unfold db2np
      have : 0 < log (10.0:ℝ) := log_pos (by norm_num)
      positivity
    have hd1 := db2np_le
    obtain ⟨dl, di, b, b1, b2, b3, b4⟩ := ra.cloudy rfl
    cases b1
    have hb : b i = (1, 0) := by
      have := (tabulateE_ok b2).1 i hi
      simp only [cloudyLevel, liqTerm, if_pos one_pos, demoG, demoA, Except.map, lt_irrefl, if_false] at this
      exact (Except.ok.inj this).symm
    rw [ra.wet, ra.dry, u2, u3, b3, b4]
    simp only [hu, hb]
    refine ⟨⟨by positivity, ?_⟩, ⟨by positivity, ?_⟩, ⟨le_rfl, by norm_num⟩, ⟨zero_le_one, by norm_num⟩⟩ <;>
      norm_num <;> linarith
  obtain ⟨T, t1, t2, -⟩ := C26_satellite h (j := 0) (k := 0) (show 0 < 2 by decide) (show 0 < 2 by decide)
    (goodPath_plane rfl ha.1 ha.2 hz) (Or.inl rfl) rfl (by simp [overcastS, tipS, demoS]) (by rw [fr]; norm_num)
    (m := 298) (M := 300) (by norm_num) tk
    (fun w y l i e1 e2 e3 e4 => by
      refine lt_of_le_of_lt (overcast_opacity_le (sat := true) (k := 0) (by decide) ?_) (by norm_num)
      simp only [Cell.taulay, e1, e2, e3, e4])
  have hk : hvkOf 22 ≤ 2.4 := by norm_num [hvkOf, cPlanck, cBoltzmann]
  have hE : (2.3e-15 + 3e-7 * 9) * opacityBelow τ 2 + 4.9e-9 * opacityBelow (planePath (overcastS true) 0) 2
      ≤ (1.44e-4:ℝ) := by
    rw [len]; norm_num at op ⊢; linarith
  obtain ⟨a', T', g0, g1, g2⟩ := C119_every_run_error (M := 300) (X := 9) (es := 1) shaved_accurate h
    (show 0 < 2 by decide) (show 0 < 2 by decide) (show 0 < 3 by decide) (show 3 ≤ 1001 by decide) path
    (fun i h1 _ => by rw [one i (by omega)]; exact zero_le_one)
    (by show opacityBelow (planePath (overcastS true) 0) 2 ≤ 1e6; rw [len]; norm_num) (Or.inl rfl)
    (by rw [fr]; norm_num) (by rw [fr]; norm_num) (by simp [overcastS, tipS, demoS]) ⟨zero_le_one, le_rfl⟩ (by norm_num)
    (fun i hi => ⟨le_trans (by norm_num) (tk i hi).1, (tk i hi).2⟩) (by norm_num) bound q4 rfl
    (op.trans (by norm_num)) rfl t1
    (by
      show hvkOf ((overcastS true).frq 0) + 300 / 0.9 * ((2.3e-15 + 3e-7 * 9) * opacityBelow τ 2 +
        4.9e-9 * opacityBelow (planePath (overcastS true) 0) 2) ≤ T
      rw [fr]
      norm_num at hk t2 hE ⊢
      linarith)
  refine ⟨a', T, T', g0, t1, g1, g2.trans ?_⟩
  show 5e-7 + 300 / 0.9 * ((2.3e-15 + 3e-7 * 9) * opacityBelow τ 2 +
    4.9e-9 * opacityBelow (planePath (overcastS true) 0) 2) ≤ 0.05
  norm_num at hE ⊢
  linarith

end Verif.Props
