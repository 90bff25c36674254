import Verif.Spec.Sky
import Verif.Props.ClosedForm

/-!
# C98: a simulation from its absorption coefficients, in closed form
-/

namespace Verif.Props

open Verif.Model Verif.Py Verif.Spec Verif.Lemmas Real

theorem layerValue_cloud {a b : ℝ} (ha : 0 ≤ a) (hb : 0 ≤ b) : layerValue false a b = some (cloudMean a b) := by
  have h0 : (0.0 : ℝ) = 0 := by norm_num
  unfold layerValue cloudMean
  rw [h0, if_neg (by push Not; exact ⟨ha, hb⟩)]
  simp only [Bool.not_false, if_true]
  split_ifs <;> rfl

theorem cloudMean_nonneg {a b : ℝ} (ha : 0 ≤ a) (hb : 0 ≤ b) : 0 ≤ cloudMean a b := by
  have := layerMean_nonneg ha hb
  unfold layerMean at this
  unfold cloudMean
  split_ifs at this ⊢ <;> first | exact this | exact le_rfl

/-- Integration of an array over a path, with the layer values `v`. -/
theorem integ_layers {z : Bool} {nl : ℕ} {a d v : ℕ → ℝ} {o : Option ℝ} {y : Option Val} (hn : 1 ≤ nl)
    (hv : ∀ i, 1 ≤ i → i < nl → layerValue z (a (i - 1)) (a i) = some (v i))
    (h : integ z nl a (.ok d) 1 1 = .ok (o, y)) :
    o = some (∑ i ∈ Finset.Icc 1 (nl - 1), v i * d i) ∧
      ∃ x, y = some x ∧ ∀ i, 1 ≤ i → i ≤ nl - 1 → x i = v i * d i := by
  have hv' : ∀ i, 1 ≤ i → i < nl → layerValue z (prevEntry a nl i) (a i) = some (v i) := fun i h1 h2 => by
    unfold prevEntry; rw [if_neg (by omega)]; exact hv i h1 h2
  simp only [integ] at h
  rw [expInt_ok hn hv'] at h
  have h := Prod.mk.inj (Except.ok.inj h)
  refine ⟨?_, _, h.2.symm, fun i h1 h2 => ?_⟩
  · rw [← h.1, mul_one]
    have hI : Finset.Ico 1 nl = Finset.Icc 1 (nl - 1) := by
      ext i; simp only [Finset.mem_Ico, Finset.mem_Icc]; omega
    rw [hI]
  · simp only [if_pos (show 1 ≤ i ∧ i < nl from ⟨h1, by omega⟩)]

section parts

variable {B τ : ℕ → ℝ} {b t n : ℕ}

theorem opacityBelow_part (h : b ≤ t) : opacityBelow (Sky.part τ b) (t - b) = opacityBelow τ t - opacityBelow τ b := by
  induction t, h using Nat.le_induction with
  | base => simp [opacityBelow]
  | succ t ht ih =>
    rw [show t + 1 - b = t - b + 1 by omega]
    unfold opacityBelow at *
    rw [Finset.sum_Icc_succ_top (by omega), ih, Finset.sum_Icc_succ_top (by omega : 1 ≤ t + 1)]
    unfold Sky.part
    rw [show b + (t - b + 1) = t + 1 by omega]
    ring

theorem opacityAbove_diff (h : b ≤ t) (htn : t ≤ n) :
    opacityAbove τ n b - opacityAbove τ n t = opacityBelow τ t - opacityBelow τ b := by
  have key (i : ℕ) (hi : i ≤ n) : opacityAbove τ n i = opacityBelow τ n - opacityBelow τ i := by
    have := opacityBelow_part (τ := τ) hi
    rw [← this]
    unfold opacityAbove opacityBelow Sky.part
    refine Finset.sum_bij (fun j _ => j - i) ?_ ?_ ?_ ?_
    · intro j hj; rw [Finset.mem_Icc] at hj ⊢; omega
    · intro j hj k hk; rw [Finset.mem_Icc] at hj hk; omega
    · intro j hj; rw [Finset.mem_Icc] at hj; exact ⟨i + j, by rw [Finset.mem_Icc]; omega, by omega⟩
    · intro j hj; rw [Finset.mem_Icc] at hj; congr 1; omega
  rw [key b (h.trans htn), key t htn]
  ring

theorem sky_part (h : b ≤ t) : skyRadiance B τ t - skyRadiance B τ b =
    exp (-opacityBelow τ b) * skyRadiance (Sky.part B b) (Sky.part τ b) (t - b) := by
  induction t, h using Nat.le_induction with
  | base => simp
  | succ t ht ih =>
    rw [skyRadiance_succ, show t + 1 - b = t - b + 1 by omega, skyRadiance_succ, mul_add, ← ih]
    have e1 : Sky.part B b (t - b) = B t := by unfold Sky.part; congr 1; omega
    have e2 : Sky.part B b (t - b + 1) = B (t + 1) := by unfold Sky.part; congr 1; omega
    have e3 : Sky.part τ b (t - b + 1) = τ (t + 1) := by unfold Sky.part; congr 1; omega
    have e4 : exp (-opacityBelow τ b) * (transDown (Sky.part τ b) (t - b) - transDown (Sky.part τ b) (t - b + 1)) =
        transDown τ t - transDown τ (t + 1) := by
      unfold transDown
      rw [opacityBelow_part ht, show t - b + 1 = t + 1 - b by omega, opacityBelow_part (by omega : b ≤ t + 1), mul_sub,
        ← exp_add, ← exp_add]
      congr 2 <;> ring
    rw [e1, e2, e3, ← e4]
    ring

theorem opacityAbove_part {d m : ℕ} (hm : m ≤ d) (hn : b + d ≤ n) :
    opacityAbove (Sky.part τ b) d m = opacityAbove τ n (b + m) - opacityAbove τ n (b + d) := by
  induction hm using Nat.decreasingInduction with
  | self => simp
  | of_succ k hk ih =>
    rw [opacityAbove_step hk, ih, opacityAbove_step (by omega : b + k < n)]
    unfold Sky.part
    rw [← add_assoc]
    ring

theorem up_part_from {k d : ℕ} (hk : k ≤ d) (hn : b + d ≤ n) : upRadiance B τ n (b + k) - upRadiance B τ n (b + d) =
    exp (-opacityAbove τ n (b + d)) * upRadiance (Sky.part B b) (Sky.part τ b) d k := by
  induction hk using Nat.decreasingInduction with
  | self => simp
  | of_succ k hk ih =>
    rw [← add_assoc] at ih
    rw [upRadiance_step (by omega : b + k < n), upRadiance_step hk, mul_add, ← ih]
    have e : exp (-opacityAbove τ n (b + d)) * (transUp (Sky.part τ b) d (k + 1) - transUp (Sky.part τ b) d k) =
        transUp τ n (b + k + 1) - transUp τ n (b + k) := by
      unfold transUp
      rw [opacityAbove_part (by omega : k + 1 ≤ d) hn, opacityAbove_part hk.le hn, mul_sub, ← exp_add, ← exp_add,
        ← add_assoc]
      congr 2 <;> ring
    rw [← e]
    unfold Sky.part
    rw [← add_assoc]
    ring

theorem up_part (h : b ≤ t) (htn : t ≤ n) : upRadiance B τ n b - upRadiance B τ n t =
    exp (-opacityAbove τ n t) * upRadiance (Sky.part B b) (Sky.part τ b) (t - b) 0 := by
  have := up_part_from (B := B) (τ := τ) (b := b) (n := n) (Nat.zero_le (t - b)) (by omega)
  rwa [add_zero, show b + (t - b) = t by omega] at this

end parts

/-- The row of the data frame for a frequency, an angle and a cloud between two levels. -/
noncomputable def skyRow (X : Sky) (above : Bool) (ε ν θ : ℝ) (cloud : Option (ℕ × ℕ)) : Row :=
  { tbtotal := some (temperature ν (behind (X.background above ε ν) X.opacity + X.air above ν))
    tbatm := some (temperature ν (if above then 0 else X.air above ν))
    tmr := meanTemperature ν (X.air above ν) X.opacity
    tmrcld := match cloud with
      | none => some 0
      | some (b, t) => X.cloudTemperature above ν b t
    tauwet := some (∑ i ∈ Finset.Icc 1 X.top, X.gas X.wet i)
    taudry := some (∑ i ∈ Finset.Icc 1 X.top, X.gas X.dry i)
    tauliq := some (∑ i ∈ Finset.Icc 1 X.top, X.cloud X.liq i)
    tauice := some (∑ i ∈ Finset.Icc 1 X.top, X.cloud X.ice i)
    angle := θ }

/-- Nothing is negative. -/
structure Sky.Sound (X : Sky) : Prop where
  T : ∀ i ≤ X.top, 0 < X.T i
  wet : ∀ i ≤ X.top, 0 ≤ X.wet i
  dry : ∀ i ≤ X.top, 0 ≤ X.dry i
  liq : ∀ i ≤ X.top, 0 ≤ X.liq i
  ice : ∀ i ≤ X.top, 0 ≤ X.ice i
  len : ∀ i ≤ X.top, 0 ≤ X.len i

theorem Sky.Sound.layer {X : Sky} (h : Sky.Sound X) (i : ℕ) (hi : i ≤ X.top) : 0 ≤ X.layer i := by
  have hl := h.len i hi
  have hp : i - 1 ≤ X.top := by omega
  unfold Sky.layer Sky.gas Sky.cloud
  have := mul_nonneg (layerMean_nonneg (h.wet _ hp) (h.wet i hi)) hl
  have := mul_nonneg (layerMean_nonneg (h.dry _ hp) (h.dry i hi)) hl
  have := mul_nonneg (cloudMean_nonneg (h.liq _ hp) (h.liq i hi)) hl
  have := mul_nonneg (cloudMean_nonneg (h.ice _ hp) (h.ice i hi)) hl
  linarith

theorem radiance_nonneg {B τ : ℕ → ℝ} {n : ℕ} (hB : ∀ i ≤ n, 0 ≤ B i) (hτ : ∀ i, 1 ≤ i → i ≤ n → 0 ≤ τ i) :
    0 ≤ skyRadiance B τ n ∧ 0 ≤ upRadiance B τ n 0 := by
  have a1 := skyRadiance_mono (B := fun _ => 0) hτ hB
  have a2 := upRadiance_mono (B := fun _ => 0) (m := 0) (fun i h1 h2 => hτ i h1 h2) hB
  rw [skyRadiance_const, zero_mul] at a1
  rw [upRadiance_const _ (Nat.zero_le _), zero_mul] at a2
  exact ⟨a1, a2⟩

theorem mean_closed {ν b τ : ℝ} (hb : 0 ≤ b) (hτ : 0 ≤ τ) {y : Option ℝ} (h1 : τ < 125 → y = npDiv b (1 - exp (-τ)))
    (h2 : 125 ≤ τ → y = some b) : y.bind (bright (hvkOf ν)) = meanTemperature ν b τ := by
  unfold meanTemperature
  rcases hτ.eq_or_lt with rfl | hlt
  · rw [h1 (by norm_num)]; simp [npDiv]
  · rw [if_neg hlt.ne']
    have hexp : 0 < 1 - exp (-τ) := by
      have : exp (-τ) < 1 := by rw [← exp_zero]; exact exp_lt_exp.2 (neg_lt_zero.2 hlt)
      linarith
    rcases lt_or_ge τ 125 with h | h
    · rw [h1 h, if_pos h, npDiv, if_neg hexp.ne', Option.bind_some]
      exact bright_temperature (by positivity)
    · rw [h2 h, if_neg (not_lt.2 h), Option.bind_some]
      exact bright_temperature hb

theorem behind_nonneg {b : ℝ} (hb : 0 ≤ b) (τ : ℝ) : 0 ≤ behind b τ := by
  unfold behind; split_ifs
  · positivity
  · exact le_rfl

section cloud

variable {X : Sky} {ν : ℝ} {b t : ℕ}

theorem between_nonneg (hX : Sky.Sound X) (hbt : b ≤ t) (ht : t ≤ X.top) : 0 ≤ X.between b t := by
  unfold Sky.between opacityBelow
  refine Finset.sum_nonneg fun i hi => ?_
  rw [Finset.mem_Icc] at hi
  exact hX.layer _ (by omega)

theorem emission_nonneg (hX : Sky.Sound X) (hν : 0 < ν) (ht : t ≤ X.top) (hbt : b ≤ t) (above : Bool) :
    0 ≤ X.emission above ν b t := by
  have hB : ∀ i ≤ t - b, 0 ≤ Sky.part (fun i => blackBody ν (X.T i)) b i := fun i hi => by
    change 0 ≤ blackBody ν (X.T (b + i))
    rw [← blackBody_eq]
    exact (tk2b_pos (hvkOf_pos hν) (hX.T _ (by omega))).le
  have h := radiance_nonneg (τ := Sky.part X.layer b) hB fun i h1 h2 => hX.layer _ (by omega)
  unfold Sky.emission
  split_ifs
  · exact h.2
  · exact h.1

/-- The value written for the cloud, from the formula for its radiance. -/
theorem cloud_closed {e τ : ℝ} (he : 0 ≤ e) (hτ : 0 ≤ τ) :
    (if 125 < τ then some e else npDiv e (1 - exp (-τ))).bind (bright (hvkOf ν)) =
      if τ = 0 then none else some (temperature ν (if 125 < τ then e else e / (1 - exp (-τ)))) := by
  rcases hτ.eq_or_lt with rfl | hlt
  · rw [if_neg (by norm_num)]; simp [npDiv]
  · have hexp : 0 < 1 - exp (-τ) := by
      have : exp (-τ) < 1 := by rw [← exp_zero]; exact exp_lt_exp.2 (neg_lt_zero.2 hlt)
      linarith
    rw [if_neg hlt.ne']
    split_ifs with h
    · rw [Option.bind_some, bright_temperature he]
    · rw [npDiv, if_neg hexp.ne', Option.bind_some, bright_temperature (by positivity)]

theorem cloud_ground (hX : Sky.Sound X) (hν : 0 < ν) (hbt : b ≤ t) (ht : t ≤ X.top) {P R : ℕ → ℝ}
    (hP : ∀ i ≤ X.top, P i = opacityBelow X.layer i)
    (hR : ∀ i ≤ X.top, R i = skyRadiance (fun i => blackBody ν (X.T i)) X.layer i) :
    (cloudTemp b t (hvkOf ν) P R).join = X.cloudTemperature false ν b t := by
  have h0 : X.between 0 b = opacityBelow X.layer b := by
    unfold Sky.between; rw [opacityBelow_part (Nat.zero_le b)]; simp
  have hbw : X.between b t = P t - P b := by
    unfold Sky.between; rw [opacityBelow_part hbt, hP t ht, hP b (hbt.trans ht)]
  have hem : (R t - R b) * exp (P b) = X.emission false ν b t := by
    rw [hR t ht, hR b (hbt.trans ht), sky_part hbt, hP b (hbt.trans ht)]
    unfold Sky.emission
    simp only [Bool.false_eq_true, if_false]
    rw [mul_right_comm, ← exp_add]; simp
  unfold cloudTemp Sky.cloudTemperature
  simp only [Bool.false_eq_true, if_false]
  rw [expmax_eq, h0, ← hP b (hbt.trans ht), hem, ← hbw]
  by_cases h1 : P b > 125
  · rw [if_pos h1, if_pos h1]; rfl
  · rw [if_neg h1, if_neg h1, Option.join_some, Model.norm_one]
    exact cloud_closed (emission_nonneg hX hν ht hbt false) (between_nonneg hX hbt ht)

theorem cloud_sat (hX : Sky.Sound X) (hν : 0 < ν) (hbt : b ≤ t) (ht : t ≤ X.top) {P R : ℕ → ℝ}
    (hP : ∀ i ≤ X.top, P i = opacityAbove X.layer X.top i)
    (hR : ∀ i ≤ X.top, R i = upRadiance (fun i => blackBody ν (X.T i)) X.layer X.top i) :
    (cloudTemp b t (hvkOf ν) P R).join = X.cloudTemperature true ν b t := by
  have h0 : X.between b X.top = opacityAbove X.layer X.top b := by
    have := opacityAbove_diff (τ := X.layer) (hbt.trans ht) le_rfl
    unfold Sky.between; rw [opacityBelow_part (hbt.trans ht), ← this]; simp
  have hbw : X.between b t = P b - P t := by
    unfold Sky.between
    rw [opacityBelow_part hbt, hP t ht, hP b (hbt.trans ht), opacityAbove_diff hbt ht]
  have hem : (R t - R b) * exp (P b) = -(X.emission true ν b t * exp (X.between b t)) := by
    have := up_part (B := fun i => blackBody ν (X.T i)) (τ := X.layer) hbt ht
    rw [hR t ht, hR b (hbt.trans ht), ← neg_sub, this, hbw, hP b (hbt.trans ht), hP t ht]
    unfold Sky.emission
    simp only [if_true]
    rw [sub_eq_add_neg, exp_add]
    ring
  have hτ := between_nonneg hX hbt ht
  have hle : X.between b t ≤ X.between b X.top := by
    have := between_nonneg hX ht le_rfl
    unfold Sky.between at *
    rw [opacityBelow_part hbt, opacityBelow_part (hbt.trans ht)]
    rw [opacityBelow_part ht] at this
    linarith
  have hneg : P t - P b = -X.between b t := by rw [hbw]; ring
  unfold cloudTemp Sky.cloudTemperature
  simp only [if_true]
  rw [expmax_eq, h0, ← hP b (hbt.trans ht), hem, hneg]
  by_cases h1 : P b > 125
  · rw [if_pos h1, if_pos h1]; rfl
  have h125 : ¬ 125 < X.between b t := by rw [hP b (hbt.trans ht), ← h0] at h1; linarith
  have key := cloud_closed (ν := ν) (emission_nonneg hX hν ht hbt true) hτ
  rw [if_neg h1, if_neg h1, if_neg (by linarith), neg_neg, Option.join_some, ← key]
  congr 1
  rw [if_neg h125]
  unfold npDiv
  rw [Model.norm_one]
  by_cases hz : X.between b t = 0
  · simp [hz]
  · have hexp : 1 - exp (-X.between b t) ≠ 0 := by
      rw [sub_ne_zero, ne_comm, Ne, exp_eq_one_iff]; simpa using hz
    have hexp' : 1 - exp (X.between b t) ≠ 0 := by
      rw [sub_ne_zero, ne_comm, Ne, exp_eq_one_iff]; exact hz
    rw [if_neg hexp', if_neg hexp, Option.some.injEq, div_eq_div_iff hexp' hexp, exp_neg]
    have := (exp_pos (X.between b t)).ne'
    field_simp
    ring

end cloud

/-- The coefficients found by a step of the simulation are those of `X`. -/
structure Computes (A : AbsRoutines) (S : Settings) (e : Val) (d : ℕ → ℝ) (j : ℕ) (g : Globals) (X : Sky) : Prop where
  top : X.top = S.nl - 1
  T : ∀ i < S.nl, X.T i = S.tk i
  len : ∀ i < S.nl, X.len i = d i
  clear : ∀ a, clearsky A g S e (S.frq j) = .ok a → ∀ i < S.nl, a i = (X.wet i, X.dry i)
  cloudy : S.cloudy = true → ∀ dl di b, S.dens = some (dl, di) →
    cloudyAbs A g.sel.liq S.nl S.tk dl di (S.frq j) = .ok b → ∀ i < S.nl, b i = (X.liq i, X.ice i)
  none : S.cloudy = false → ∀ i < S.nl, X.liq i = 0 ∧ X.ice i = 0

/-- The cloud of the first row, if there is one. -/
def cloudOf (S : Settings) : Option (ℕ × ℕ) := if S.cloudy then S.clouds.bind List.head? else none

/-- One cell of the results, for any absorption routines and any path. -/
theorem cell_closed {A : AbsRoutines} {S : Settings} {e : Val} {d : ℕ → ℝ} {j : ℕ} {g : Globals} {c c' : Cell} {X : Sky}
    (hok : CellOk A S e (.ok d) j g c c') (hn : 1 ≤ S.nl) (hX : Sky.Sound X) (hC : Computes A S e d j g X)
    (hf : 0 < S.frq j) (hε : 0 ≤ g.emissivity) (hno : S.cloudy = false → StaleEq Cell.zero c)
    (hcl : ∀ b t, cloudOf S = some (b, t) → b ≤ t ∧ t < S.nl) (θ : ℝ) :
    c'.row θ = skyRow X g.fromSat g.emissivity (S.frq j) θ (cloudOf S) := by
  have htop := hC.top
  have lt_of {i : ℕ} (h : i ≤ X.top) : i < S.nl := by omega
  obtain ⟨a, ha, -, -, hw, hd⟩ := hok.clear
  have hav := hC.clear a ha
  have gas {x y : ℕ → ℝ} (hxy : ∀ i < S.nl, x i = y i) (hy : ∀ i ≤ X.top, 0 ≤ y i) {o : Option ℝ} {v : Option Val}
      (h : integ true S.nl x (.ok d) 1 1 = .ok (o, v)) : o = some (∑ i ∈ Finset.Icc 1 X.top, X.gas y i) ∧
        ∃ u, v = some u ∧ ∀ i, 1 ≤ i → i ≤ X.top → u i = X.gas y i := by
    obtain ⟨h1, u, h2, h3⟩ := integ_layers hn (v := fun i => layerMean (y (i - 1)) (y i)) (fun i p1 p2 => by
      rw [hxy i p2, hxy (i - 1) (by omega)]
      exact layerValue_mean (hy _ (by omega)) (hy i (by omega))) h
    rw [← htop] at h1 h3
    refine ⟨?_, u, h2, fun i p1 p2 => by rw [h3 i p1 p2, ← hC.len i (lt_of p2)]; rfl⟩
    rw [h1]
    exact congrArg some (Finset.sum_congr rfl fun i hi => by
      rw [← hC.len i (lt_of (Finset.mem_Icc.1 hi).2)]; rfl)
  have drops {x y : ℕ → ℝ} (hxy : ∀ i < S.nl, x i = y i) (hy : ∀ i ≤ X.top, 0 ≤ y i) {o : Option ℝ} {v : Option Val}
      (h : integ false S.nl x (.ok d) 1 1 = .ok (o, v)) : o = some (∑ i ∈ Finset.Icc 1 X.top, X.cloud y i) ∧
        ∃ u, v = some u ∧ ∀ i, 1 ≤ i → i ≤ X.top → u i = X.cloud y i := by
    obtain ⟨h1, u, h2, h3⟩ := integ_layers hn (v := fun i => cloudMean (y (i - 1)) (y i)) (fun i p1 p2 => by
      rw [hxy i p2, hxy (i - 1) (by omega)]
      exact layerValue_cloud (hy _ (by omega)) (hy i (by omega))) h
    rw [← htop] at h1 h3
    refine ⟨?_, u, h2, fun i p1 p2 => by rw [h3 i p1 p2, ← hC.len i (lt_of p2)]; rfl⟩
    rw [h1]
    exact congrArg some (Finset.sum_congr rfl fun i hi => by
      rw [← hC.len i (lt_of (Finset.mem_Icc.1 hi).2)]; rfl)
  obtain ⟨sw, xw, pw, vw⟩ := gas (fun i hi => by rw [hav i hi]) hX.wet hw
  obtain ⟨sd, xd, pd, vd⟩ := gas (fun i hi => by rw [hav i hi]) hX.dry hd
  have hzero : S.cloudy = false → ∀ i, 1 ≤ i → i ≤ X.top → X.cloud X.liq i = 0 ∧ X.cloud X.ice i = 0 := by
    intro h i h1 h2
    have e1 := hC.none h i (lt_of h2)
    have e2 := hC.none h (i - 1) (by omega)
    unfold Sky.cloud cloudMean
    rw [e1.1, e1.2, e2.1, e2.2]
    norm_num
  have hcloud : ∃ xl xi, c'.ptauliq = some xl ∧ c'.ptauice = some xi ∧
      c'.sptauliq = some (∑ i ∈ Finset.Icc 1 X.top, X.cloud X.liq i) ∧
      c'.sptauice = some (∑ i ∈ Finset.Icc 1 X.top, X.cloud X.ice i) ∧
      ∀ i, 1 ≤ i → i ≤ X.top → xl i = X.cloud X.liq i ∧ xi i = X.cloud X.ice i := by
    by_cases h : S.cloudy = true
    · obtain ⟨dl, di, b, hdn, hb, hl, hi⟩ := hok.cloud h
      have hbv := hC.cloudy h dl di b hdn hb
      obtain ⟨s1, x1, p1, v1⟩ := drops (fun i hi => by rw [hbv i hi]) hX.liq hl
      obtain ⟨s2, x2, p2, v2⟩ := drops (fun i hi => by rw [hbv i hi]) hX.ice hi
      exact ⟨x1, x2, p1, p2, s1, s2, fun i h1 h2 => ⟨v1 i h1 h2, v2 i h1 h2⟩⟩
    · have h : S.cloudy = false := by simpa using h
      have hst := hok.stale h
      have hz := hno h
      refine ⟨fun _ => 0, fun _ => 0, ?_, ?_, ?_, ?_, fun i h1 h2 => ⟨(hzero h i h1 h2).1.symm, (hzero h i h1 h2).2.symm⟩⟩
      · rw [← hst.ptauliq, ← hz.ptauliq]; rfl
      · rw [← hst.ptauice, ← hz.ptauice]; rfl
      · rw [← hst.sptauliq, ← hz.sptauliq, Finset.sum_eq_zero fun i hi => (hzero h i (Finset.mem_Icc.1 hi).1 (Finset.mem_Icc.1 hi).2).1]; rfl
      · rw [← hst.sptauice, ← hz.sptauice, Finset.sum_eq_zero fun i hi => (hzero h i (Finset.mem_Icc.1 hi).1 (Finset.mem_Icc.1 hi).2).2]; rfl
  obtain ⟨xl, xi, pl, pi, sl, si, vc⟩ := hcloud
  have ht : c'.taulay = some fun i => xw i + xd i + xi i + xl i := by
    simp only [Cell.taulay, pw, pd, pl, pi]
  obtain ⟨out, hout, b1, b2, b3, b4⟩ := hok.rad _ ht
  have hτ : ∀ i, 1 ≤ i → i ≤ X.top → xw i + xd i + xi i + xl i = X.layer i := fun i h1 h2 => by
    rw [vw i h1 h2, vd i h1 h2, (vc i h1 h2).1, (vc i h1 h2).2, Sky.layer]; ring
  have hτ0 : ∀ i, 1 ≤ i → i ≤ X.top → 0 ≤ X.layer i := fun i _ h2 => hX.layer i h2
  have hBB : ∀ i ≤ X.top, tk2b (hvkOf (S.frq j)) (S.tk i) = blackBody (S.frq j) (X.T i) := fun i hi => by
    rw [blackBody_eq, hC.T i (lt_of hi)]
  have hB : ∀ i ≤ X.top, 0 ≤ blackBody (S.frq j) (X.T i) := fun i hi => by
    rw [← blackBody_eq]; exact (tk2b_pos (hvkOf_pos hf) (hX.T i hi)).le
  have hop (i : ℕ) (hi : i ≤ X.top) : opacityBelow (fun i => xw i + xd i + xi i + xl i) i = opacityBelow X.layer i :=
    opacityBelow_congr (fun k h1 h2 => hτ k h1 h2) hi
  have hop0 : 0 ≤ X.opacity := Finset.sum_nonneg fun i hi => hτ0 i (Finset.mem_Icc.1 hi).1 (Finset.mem_Icc.1 hi).2
  have h0 := radiance_nonneg hB hτ0
  have hcld : S.cloudy = false → c'.tmrcld = some 0 := fun h => by
    rw [← (hok.stale h).tmrcld, ← (hno h).tmrcld]; rfl
  have hfinish {above : Bool} (hvk : out.hvk = hvkOf (S.frq j)) (key : ∀ b t, b ≤ t → t < S.nl →
      (cloudTemp b t (hvkOf (S.frq j)) out.tauprof out.boftatm).join = X.cloudTemperature above (S.frq j) b t) :
      c'.tmrcld = match cloudOf S with
        | none => some 0
        | some (b, t) => X.cloudTemperature above (S.frq j) b t := by
    by_cases h : S.cloudy = true
    · obtain ⟨b, t, cs, h1, h2⟩ := b4 h
      have hco : cloudOf S = some (b, t) := by simp [cloudOf, h, h1]
      rw [hco, h2, hvk, key b t (hcl b t hco).1 (hcl b t hco).2]
    · have h : S.cloudy = false := by simpa using h
      have hco : cloudOf S = none := by simp [cloudOf, h]
      rw [hco, hcld h]
  unfold Cell.row skyRow
  rw [b1, b2, b3, sw, sd, sl, si]
  cases hsat : g.fromSat with
  | false =>
    rw [hsat] at hout
    obtain ⟨-, q1, -, q3, q4, q5, q6, q7⟩ := planck_ground hout
    have hsky (i : ℕ) (hi : i ≤ X.top) : skyRadiance (fun i => tk2b (hvkOf (S.frq j)) (S.tk i))
        (fun i => xw i + xd i + xi i + xl i) i = skyRadiance (fun i => blackBody (S.frq j) (X.T i)) X.layer i :=
      skyRadiance_congr2 (fun k hk => hBB k (hk.trans hi)) fun k h1 h2 => hτ k h1 (h2.trans hi)
    have hprof : ∀ i ≤ X.top, out.tauprof i = opacityBelow X.layer i := fun i hi => by
      rw [q3 i (lt_of hi), hop i hi]
    have hatm : ∀ i ≤ X.top, out.boftatm i = skyRadiance (fun i => blackBody (S.frq j) (X.T i)) X.layer i := fun i hi => by
      rw [q4 i (lt_of hi), hsky i hi]
    rw [← htop, hop _ le_rfl, hsky _ le_rfl] at q5 q6
    rw [← htop, hsky _ le_rfl] at q7
    have hcos : tk2b (hvkOf (S.frq j)) cTcosmicbkg = blackBody (S.frq j) 2.728 := by
      rw [blackBody_eq]; norm_num [cTcosmicbkg]
    have hc0 : 0 ≤ blackBody (S.frq j) 2.728 := by
      rw [← blackBody_eq]; exact (tk2b_pos (hvkOf_pos hf) (by norm_num)).le
    have hbg : out.bakgrnd = behind (blackBody (S.frq j) 2.728) X.opacity := by
      unfold behind
      split_ifs with h
      · rw [(q5 h).1, hcos]; rfl
      · exact (q6 (not_lt.1 h)).1
    rw [hfinish (above := false) q1 fun b t h1 h2 => cloud_ground hX hf h1 (by omega) hprof hatm, q1, q7, hbg, ← htop,
      hatm _ le_rfl, bright_temperature (add_nonneg (behind_nonneg hc0 _) h0.1), bright_temperature h0.1,
      mean_closed h0.1 hop0 (fun h => (q5 h).2) fun h => (q6 h).2]
    rfl
  | true =>
    rw [hsat] at hout
    obtain ⟨-, q1, -, q3, q4, q5, q6, q7⟩ := planck_sat hout
    have hup (i : ℕ) : upRadiance (fun i => tk2b (hvkOf (S.frq j)) (S.tk i))
        (fun i => xw i + xd i + xi i + xl i) X.top i = upRadiance (fun i => blackBody (S.frq j) (X.T i)) X.layer X.top i :=
      upRadiance_congr2 hBB hτ
    have hprof : ∀ i ≤ X.top, out.tauprof i = opacityAbove X.layer X.top i := fun i hi => by
      rw [q3 i (lt_of hi), ← htop, Verif.Spec.opacityAbove_congr hτ]
    have hatm : ∀ i ≤ X.top, out.boftatm i = upRadiance (fun i => blackBody (S.frq j) (X.T i)) X.layer X.top i :=
      fun i hi => by rw [q4 i (lt_of hi), ← htop, hup i]
    rw [← htop, hop _ le_rfl, hup] at q5 q6
    rw [← htop, hup] at q7
    have hbg : out.bakgrnd = behind (g.emissivity * blackBody (S.frq j) (X.T 0)) X.opacity := by
      unfold behind
      split_ifs with h
      · rw [(q5 h).1, hBB 0 (Nat.zero_le _)]; rfl
      · exact (q6 (not_lt.1 h)).1
    rw [hfinish (above := true) q1 fun b t h1 h2 => cloud_sat hX hf h1 (by omega) hprof hatm, q1, q7, hbg, ← htop,
      hatm _ le_rfl, upRadiance_self, bright_temperature (add_nonneg (behind_nonneg (mul_nonneg hε (hB 0 (Nat.zero_le _))) _) h0.2),
      bright_temperature le_rfl, mean_closed h0.2 hop0 (fun h => (q5 h).2) fun h => (q6 h).2]
    rfl

end Verif.Props
