import Verif.Props.RoundedLayer
import Verif.Props.Opacity

/-!
# C119: rounding errors of a run

The absorption a run stores, its path lengths and its temperatures are the input of
`Arith.exact.tbProfile`; the temperature it reports is the output.
-/

namespace Verif.Props

open Verif.Model Verif.Py Verif.Spec Verif.Lemmas Real

variable {A : AbsRoutines} {g : Globals} {I : Inst} {rows : List Row} {F : Arith}

theorem zero_expInt {nl : ℕ} (hn : 0 < nl) (ds : ℕ → ℝ) :
    expInt false nl (fun _ => 0) ds 1 nl 1 = .ok (0, fun _ => 0) := by
  rw [expInt_ok (v := fun _ => 0) hn]
  · congr 2
    · simp
    · funext i; simp
  · intro i _ _
    have : prevEntry (fun _ => (0:ℝ)) nl i = 0 := by unfold prevEntry; split_ifs <;> rfl
    rw [this, Arith.layerValue_unf, if_neg (by norm_num), if_pos (by norm_num)]

theorem integ_run {z : Bool} {nl : ℕ} {x d : Val} {s : Option ℝ} {f : Val}
    (h : integ z nl x (.ok d) 1 1 = .ok (s, some f)) :
    ∃ r : ℝ, Arith.exact.expInt z nl x d 1 nl 1 = some (.ok (r, f)) := by
  rw [C119_same_program]
  simp only [integ] at h
  cases he : expInt z nl x d 1 nl 1 with
  | error e => rw [he] at h; cases h
  | ok r => rw [he] at h; cases h; exact ⟨r.1, rfl⟩

theorem integ_some {z : Bool} {nl : ℕ} {x d : Val} {s : Option ℝ} {f : Option Val}
    (h : integ z nl x (.ok d) 1 1 = .ok (s, f)) : ∃ f', f = some f' := by
  simp only [integ] at h
  cases he : expInt z nl x d 1 nl 1 with
  | error e => rw [he] at h; cases h
  | ok r => rw [he] at h; cases h; exact ⟨r.2, rfl⟩

/-- Path lengths of a plane-parallel view. -/
noncomputable def planePath (S : Settings) (k : ℕ) : ℕ → ℝ := fun i => if i = 0 then 0 else
  (S.z i - S.z (i - 1)) * (1 / sin (S.angles k * π / 180))

/-- **C119.** The brightness temperature of a clear plane-parallel run, in either viewing direction, is the
exact value of the program that `C119_any` is about, on the absorption the run stores. -/
theorem C119_run (h : (execute A g I).1 = .ok rows) (hr : I.set.rayTracing = false) {j k : ℕ}
    (hj : j < I.set.nf) (hk : k < I.set.nang) (hn : 0 < I.set.nl) (hs : sin (I.set.angles k * π / 180) ≠ 0)
    (hcl : I.set.cloudy = false) (hst : NoClouds I.out) :
    ∃ es τ, I.set.es[j]? = some es ∧
      Arith.exact.opacities I.set.nl ⟨((execute A g I).2.out.cell j k).awet,
        ((execute A g I).2.out.cell j k).adry, fun _ => 0, fun _ => 0⟩ (planePath I.set k) = some τ ∧
      ((execute A g I).2.out.cell j k).taulay = some τ ∧
      ((execute A g I).2.out.cell j k).tbtotal =
        Arith.exact.tbProfile I.set.satellite es (I.set.frq j) I.set.nl I.set.tk
          ⟨((execute A g I).2.out.cell j k).awet, ((execute A g I).2.out.cell j k).adry,
            fun _ => 0, fun _ => 0⟩ (planePath I.set k) := by
  obtain ⟨g1, e, rho, -, -, -, hc⟩ := (execute_ok h).ex
  obtain ⟨es, q1, q2⟩ := (hc k hk).2 j hj
  rw [pathOf_plane hr hs] at q2
  have c1 := cellStep_ok q2
  obtain ⟨u, -, a2, a3, a4, a5⟩ := c1.clear
  obtain ⟨w, hw⟩ := integ_some a4
  obtain ⟨d, hd⟩ := integ_some a5
  rw [hw] at a4
  rw [hd] at a5
  obtain ⟨r, hr1⟩ := integ_run a4
  obtain ⟨r', hr2⟩ := integ_run a5
  have t1 := c1.stale hcl
  have l0 := t1.ptauliq.symm.trans (hst j k).1
  have i0 := t1.ptauice.symm.trans (hst j k).2
  have tl : ((execute A g I).2.out.cell j k).taulay = some fun n => w n + d n + 0 + 0 := by
    simp only [Cell.taulay, hw, hd, l0, i0, Cell.zero]
  have op : Arith.exact.opacities I.set.nl ⟨((execute A g I).2.out.cell j k).awet,
      ((execute A g I).2.out.cell j k).adry, fun _ => 0, fun _ => 0⟩ (planePath I.set k)
      = some fun n => w n + d n + 0 + 0 := by
    unfold Arith.opacities planePath
    rw [a2, a3]
    simp only
    rw [hr1, hr2, C119_same_program, zero_expInt hn]
    rfl
  refine ⟨es, _, q1, op, tl, ?_⟩
  obtain ⟨out, o1, o2, -⟩ := c1.rad _ tl
  rw [cellGlobals_emissivity, cellGlobals_fromSat] at o1
  unfold Arith.tbProfile
  rw [op, o2]
  show _ = Arith.exact.tbtotal _ _ _ _ _ _
  rw [C118_same_program]
  show _ = (planck I.set.satellite es (I.set.frq j) I.set.nl I.set.tk _).bind _
  rw [o1]
  rfl

/-- **C119.** What a run reports and what the same run would report in double precision from the same
absorption and path lengths. -/
theorem C119_run_error (hF : F.Accurate (2 ^ (-52 : ℤ))) (h : (execute A g I).1 = .ok rows)
    (hr : I.set.rayTracing = false) {j k : ℕ} (hj : j < I.set.nf) (hk : k < I.set.nang)
    (hn : 0 < I.set.nl) (hn1 : I.set.nl ≤ 1001) (ha : 0 < I.set.angles k) (hb : I.set.angles k < 180)
    (hz : ∀ i, i + 1 < I.set.nl → I.set.z i ≤ I.set.z (i + 1))
    (hcl : I.set.cloudy = false) (hst : NoClouds I.out)
    (h1 : 1 ≤ I.set.frq j) (h2 : I.set.frq j ≤ 1000)
    {es : ℝ} (hes : I.set.es[j]? = some es) (hes1 : 0 ≤ es ∧ es ≤ 1)
    {M X : ℝ} (hM : M ≤ 350) (hT : ∀ i < I.set.nl, 2.728 ≤ I.set.tk i ∧ I.set.tk i ≤ M) (hX : X ≤ 4000)
    (hw : ∀ i < I.set.nl, 0 ≤ ((execute A g I).2.out.cell j k).awet i ∧
      ((execute A g I).2.out.cell j k).awet i ≤ X)
    (hy : ∀ i < I.set.nl, 0 ≤ ((execute A g I).2.out.cell j k).adry i ∧
      ((execute A g I).2.out.cell j k).adry i ≤ X)
    {L E T τs : ℝ} (hL : L = (I.set.z (I.set.nl - 1) - I.set.z 0) / sin (I.set.angles k * π / 180))
    (hL1 : L ≤ 1e6) {τ : Val} (hτ : ((execute A g I).2.out.cell j k).taulay = some τ)
    (hτs : τs = opacityBelow τ (I.set.nl - 1)) (hop : τs ≤ 124)
    (hE : E = (2.3e-15 + 3e-7 * X) * τs + 4.9e-9 * L)
    (hTb : ((execute A g I).2.out.cell j k).tbtotal = some T)
    (hlow : hvkOf (I.set.frq j) + M / 0.9 * E ≤ T) :
    ∃ T', F.tbProfile I.set.satellite es (I.set.frq j) I.set.nl I.set.tk
        ⟨((execute A g I).2.out.cell j k).awet, ((execute A g I).2.out.cell j k).adry,
          fun _ => 0, fun _ => 0⟩ (planePath I.set k) = some T' ∧ |T' - T| ≤ 5e-7 + M / 0.9 * E := by
  have hs := sin_pos_of_angle ha hb
  obtain ⟨es', τ', q1, q2, q3, q4⟩ := C119_run h hr hj hk hn hs.ne' hcl hst
  rw [hes] at q1; cases q1
  rw [hτ] at q3; cases q3
  rw [hTb] at q4
  have X0 : 0 ≤ X := (hw 0 hn).1.trans (hw 0 hn).2
  have len : opacityBelow (planePath I.set k) (I.set.nl - 1) = L := by
    unfold opacityBelow
    rw [Finset.sum_congr rfl (g := fun i => 1 / sin (I.set.angles k * π / 180) * (I.set.z i - I.set.z (i - 1)))]
    · rw [telescope, hL]; ring
    · intro i hi
      rw [Finset.mem_Icc] at hi
      unfold planePath
      rw [if_neg (by omega)]; ring
  refine C119_any hF h1 h2 hes1 hn hn1 hM hT (X := X)
    (fun i hi => ⟨hw i hi, hy i hi, ⟨le_rfl, X0⟩, ⟨le_rfl, X0⟩⟩) hX (fun i k1 k2 => ?_) (by rw [len]; exact hL1)
    q2 (by rw [← hτs]; exact hop) (by rw [len, ← hτs]; exact hE) q4.symm hlow
  unfold planePath
  rw [if_neg (by omega)]
  have := hz (i - 1) (by omega)
  rw [show i - 1 + 1 = i by omega] at this
  exact mul_nonneg (by linarith) (by positivity)

/-- The absorption of the scene of C83. -/
theorem tip_absorption {sat : Bool} {k : ℕ} (hk : k < 2) {rows : List Row}
    (h : (execute demoA demoG ⟨tipS sat, Store.zero⟩).1 = .ok rows) : ∀ i < 3,
    (0 ≤ ((execute demoA demoG ⟨tipS sat, Store.zero⟩).2.out.cell 0 k).awet i ∧
      ((execute demoA demoG ⟨tipS sat, Store.zero⟩).2.out.cell 0 k).awet i ≤ 9) ∧
    (0 ≤ ((execute demoA demoG ⟨tipS sat, Store.zero⟩).2.out.cell 0 k).adry i ∧
      ((execute demoA demoG ⟨tipS sat, Store.zero⟩).2.out.cell 0 k).adry i ≤ 9) := by
  intro i hi
  obtain ⟨g1, e, rho, hl, -, -, hc⟩ := (execute_ok h).ex
  obtain ⟨es, q1, q2⟩ := (hc k hk).2 0 (show 0 < 2 by decide)
  obtain ⟨u, u1, u2, u3, -, -⟩ := (cellStep_ok q2).clear
  have hu : u i = (0.182 * 22 * db2np, 0.182 * 22 * 2 * db2np) := by
    have := demo_level ((tabulateE_ok u1).1 i hi)
    simpa [tipS, demoS] using this
  have hd : 0 < db2np := by
    unfold db2np
    have : 0 < log (10.0:ℝ) := log_pos (by norm_num)
    positivity
  have hd1 := db2np_le
  rw [u2, u3]
  simp only [hu]
  refine ⟨⟨by positivity, ?_⟩, ⟨by positivity, ?_⟩⟩ <;> norm_num <;> linarith

/-- The scene of C83 seen from above meets the hypotheses of `C119_run_error`. -/
example : ∃ T T', ((execute demoA demoG ⟨tipS true, Store.zero⟩).2.out.cell 0 0).tbtotal = some T ∧
    shaved.tbProfile true 1 22 3 (tipS true).tk
      ⟨((execute demoA demoG ⟨tipS true, Store.zero⟩).2.out.cell 0 0).awet,
        ((execute demoA demoG ⟨tipS true, Store.zero⟩).2.out.cell 0 0).adry, fun _ => 0, fun _ => 0⟩
      (planePath (tipS true) 0) = some T' ∧ |T' - T| ≤ 0.05 := by
  obtain ⟨rows, h⟩ := tip_runs true
  have ha := demo_angles 0 (show 0 < 2 by decide)
  have hs := sin_pos_of_angle ha.1 ha.2
  have cl : NoClouds (⟨tipS true, Store.zero⟩ : Inst).out := fun _ _ => ⟨rfl, rfl, rfl, rfl, rfl⟩
  have hz : ∀ i, i + 1 < (tipS true).nl → (tipS true).z i ≤ (tipS true).z (i + 1) := fun i _ => by
    simp [tipS, demoS]
  have fr : (tipS true).frq 0 = 22 := by simp [tipS, demoS]
  have tk : ∀ i < 3, 298 ≤ (tipS true).tk i ∧ (tipS true).tk i ≤ 300 := fun i hi => by
    have : (i : ℝ) ≤ 2 := by exact_mod_cast (by omega : i ≤ 2)
    have : (0:ℝ) ≤ i := Nat.cast_nonneg i
    constructor <;> simp only [tipS, demoS] <;> linarith
  obtain ⟨es, τ, -, -, q3, -⟩ := C119_run h rfl (show 0 < 2 by decide) (show 0 < 2 by decide)
    (show 0 < 3 by decide) hs.ne' rfl cl
  have op := tip_opacity_le (by decide) h q3
  obtain ⟨T, t1, t2, t3⟩ := C26_satellite h (j := 0) (k := 0) (show 0 < 2 by decide) (show 0 < 2 by decide)
    (goodPath_plane rfl ha.1 ha.2 hz) (Or.inr fun _ _ => ⟨_, _, rfl, rfl, fun _ => le_rfl, fun _ => le_rfl⟩) rfl
    (by simp [tipS, demoS]) (by rw [fr]; norm_num) (m := 298) (M := 300) (by norm_num) tk
    (fun w y l i e1 e2 e3 e4 => by
      refine lt_of_le_of_lt (tip_opacity_le (sat := true) (k := 0) (by decide) h ?_) (by norm_num)
      simp only [Cell.taulay, e1, e2, e3, e4])
  have hL : (2:ℝ) = ((tipS true).z (3 - 1) - (tipS true).z 0) / sin ((tipS true).angles 0 * π / 180) := by
    simp only [tipS, demoS]
    norm_num
    rw [show 90 * π / 180 = π / 2 by ring, sin_pi_div_two]
    norm_num
  have hE : (2.3e-15 + 3e-7 * 9) * opacityBelow τ 2 + 4.9e-9 * 2 ≤ (1.4e-4:ℝ) := by
    norm_num at op ⊢; linarith
  have hk : hvkOf 22 ≤ 2.4 := by norm_num [hvkOf, cPlanck, cBoltzmann]
  obtain ⟨T', g1, g2⟩ := C119_run_error (M := 300) (X := 9) (L := 2) (es := 1) shaved_accurate h rfl
    (show 0 < 2 by decide) (show 0 < 2 by decide) (show 0 < 3 by decide) (show 3 ≤ 1001 by decide) ha.1 ha.2 hz rfl cl
    (by rw [fr]; norm_num) (by rw [fr]; norm_num) (by simp [tipS, demoS]) ⟨zero_le_one, le_rfl⟩ (by norm_num)
    (fun i hi => ⟨le_trans (by norm_num) (tk i hi).1, (tk i hi).2⟩) (by norm_num)
    (fun i hi => (tip_absorption (by decide) h i hi).1) (fun i hi => (tip_absorption (by decide) h i hi).2)
    hL (by norm_num) q3 rfl (op.trans (by norm_num)) rfl t1
    (by
      show hvkOf ((tipS true).frq 0) + 300 / 0.9 * ((2.3e-15 + 3e-7 * 9) * opacityBelow τ 2 + 4.9e-9 * 2) ≤ T
      rw [fr]
      norm_num at hk t2 hE ⊢
      linarith)
  refine ⟨T, T', t1, ?_, ?_⟩
  · rw [← fr]; exact g1
  · have e : (⟨tipS true, Store.zero⟩ : Inst).set.nl - 1 = 2 := rfl
    rw [e] at g2
    norm_num at g2 hE ⊢
    linarith

end Verif.Props
