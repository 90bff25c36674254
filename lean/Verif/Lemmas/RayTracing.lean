import Verif.Model.RayTracing
import Verif.Lemmas.PlanckLoop
import Mathlib.Analysis.SpecialFunctions.Trigonometric.Bounds

/-! # Lemmas about `ray_tracing` -/

namespace Verif.Model

open Verif.Py Real

theorem npDiv_eq_some {a b x : ℝ} : npDiv a b = some x ↔ b ≠ 0 ∧ a / b = x := by
  unfold npDiv; split <;> simp_all
theorem npSqrt_eq_some {a x : ℝ} : npSqrt a = some x ↔ 0 ≤ a ∧ Real.sqrt a = x := by
  unfold npSqrt; split <;> simp_all
theorem npArcsin_eq_some {a x : ℝ} : npArcsin a = some x ↔ (-1 ≤ a ∧ a ≤ 1) ∧ arcsin a = x := by
  unfold npArcsin; split <;> simp_all

/-- What a completed layer says about its outputs. -/
theorem rayLayer_some {I : RayIn} {i : ℕ} {L L' : RayLow} {d dt : ℝ}
    (h : rayLayer I i L = some (d, L', dt)) :
    ∃ d0 th dth nb : ℝ, I.thetas i = some (th, dth) ∧ I.refbar i = some nb ∧ nb ≠ 0 ∧
      L'.rl = I.r i ∧ L'.phil = dth + (L.taul + dt) ∧ L'.taul = L.taul + dt ∧
      dt = ((1 / tan th + 1 / L.tanthl) * 0.5 * (I.refindx (i - 1) - I.refindx i)) / nb ∧
      0 ≤ (I.z i - I.z (i - 1)) ^ 2 + 4 * I.r i * L.rl * (sin ((L'.phil - L.phil) * 0.5)) ^ 2 ∧
      d0 = Real.sqrt ((I.z i - I.z (i - 1)) ^ 2 +
        4 * I.r i * L.rl * (sin ((L'.phil - L.phil) * 0.5)) ^ 2) ∧
      ((dt = 0 ∧ d = d0) ∨
        (dt ≠ 0 ∧ 2 * sin (|dt| * 0.5) ≠ 0 ∧ d = d0 * (|dt| / (2 * sin (|dt| * 0.5))))) := by
  unfold rayLayer at h
  simp only [Option.bind_eq_bind, Option.bind_eq_some_iff, Option.pure_def, npDiv_eq_some,
    npSqrt_eq_some, npTan, Prod.exists] at h
  obtain ⟨nb, hnb, th, dth, hth, tn, ⟨-, htn⟩, c1, ⟨-, hc1⟩, c2, ⟨-, hc2⟩, dt', ⟨hnb0, hdt⟩, d0,
    ⟨hd0, hd0'⟩, hfin⟩ := h
  have h4 : (4.0:ℝ) = 4 := by norm_num
  have h2 : (2.0:ℝ) = 2 := by norm_num
  simp only [h4, h2, norm_one, norm_zero'] at *
  have hdt' : dt' = ((1 / tan th + 1 / L.tanthl) * 0.5 * (I.refindx (i - 1) - I.refindx i)) / nb := by
    rw [← hdt, ← hc1, ← hc2, ← htn, tan_eq_sin_div_cos]
  split_ifs at hfin with hz
  · simp only [Option.bind_eq_some_iff, npDiv_eq_some, add_sub_cancel_left] at hfin
    obtain ⟨f, ⟨hf0, rfl⟩, hfin⟩ := hfin
    simp only [Option.some.injEq, Prod.mk.injEq] at hfin
    obtain ⟨_, rfl, rfl, rfl, rfl⟩ := hfin
    exact ⟨d0, th, dth, nb, hth, hnb, hnb0, rfl, rfl, rfl, hdt', hd0, hd0'.symm,
      Or.inr ⟨hz, hf0, rfl⟩⟩
  · simp only [Option.bind_some, Option.some.injEq, Prod.mk.injEq] at hfin
    obtain ⟨rfl, rfl, rfl⟩ := hfin
    exact ⟨d0, th, dth, nb, hth, hnb, hnb0, rfl, rfl, rfl, hdt', hd0, hd0'.symm,
      Or.inl ⟨not_not.1 hz, rfl⟩⟩

/-- A completed increment is at least the layer thickness. -/
theorem rayLayer_ge {I : RayIn} {i : ℕ} {L L' : RayLow} {d dt : ℝ}
    (h : rayLayer I i L = some (d, L', dt)) (hr : 0 < I.r i) (hrl : 0 < L.rl) (hdt : |dt| < 2 * π) :
    |I.z i - I.z (i - 1)| ≤ d := by
  obtain ⟨d0, th, dth, nb, -, -, -, -, -, -, -, -, hd0, hcase⟩ := rayLayer_some h
  have hge : |I.z i - I.z (i - 1)| ≤ d0 := by
    rw [hd0, ← Real.sqrt_sq_eq_abs]
    apply Real.sqrt_le_sqrt
    have : 0 ≤ 4 * I.r i * L.rl * (sin ((L'.phil - L.phil) * 0.5)) ^ 2 := by positivity
    linarith
  rcases hcase with ⟨-, rfl⟩ | ⟨hne, -, rfl⟩
  · exact hge
  · have hpos : 0 < |dt| := abs_pos.2 hne
    have hs : 0 < sin (|dt| * 0.5) := sin_pos_of_pos_of_lt_pi (by positivity) (by linarith)
    have hlt : sin (|dt| * 0.5) < |dt| * 0.5 := sin_lt (by positivity)
    have hf : 1 ≤ |dt| / (2 * sin (|dt| * 0.5)) := by
      rw [le_div_iff₀ (by positivity)]; linarith
    exact hge.trans (le_mul_of_one_le_right ((abs_nonneg _).trans hge) hf)

/-- Shape of the slant result: layers `1 … k-1` were traced, the rest is untouched. -/
theorem raySlant_shape (I : RayIn) (hnl : 1 ≤ I.nl) (P : ℕ → RayLow → ℝ → RayLow → ℝ → Prop)
    (hP : ∀ i L d L' dt, rayLayer I i L = some (d, L', dt) → P i L d L' dt) :
    ∃ k, 1 ≤ k ∧ k ≤ I.nl ∧ (k < I.nl → I.argth k ≤ 0) ∧
      (∀ i, 1 ≤ i → i < k → 0 < I.argth i) ∧
      (∀ i, (i < 1 ∨ k ≤ i) → (raySlant I).ds i = some 0) ∧
      (∀ i, 1 ≤ i → i < k → ((raySlant I).ds i = none ∧ (raySlant I).dtau i = none) ∨
        ∃ L d L' dt, (raySlant I).ds i = some d ∧ (raySlant I).dtau i = some dt ∧ P i L d L' dt ∧
          L.rl = I.r (i - 1)) := by
  have hr0 : I.rs = I.r 0 := rfl
  set Inv : ℕ → RayState → Prop := fun k s =>
    (∀ L, s.low = some L → L.rl = I.r (k - 1)) ∧
    (∀ i, 1 ≤ i → i < k → 0 < I.argth i) ∧
    (∀ i, (i < 1 ∨ k ≤ i) → s.ds i = some 0) ∧
    (∀ i, 1 ≤ i → i < k → (s.ds i = none ∧ s.dtau i = none) ∨
      ∃ L d L' dt, s.ds i = some d ∧ s.dtau i = some dt ∧ P i L d L' dt ∧ L.rl = I.r (i - 1)) with hInv
  have := forRangeE_inv (lo := 1) (hi := I.nl) (f := rayBody I) (s := rayInit I) Inv
    (fun s => ∃ k, 1 ≤ k ∧ k < I.nl ∧ I.argth k ≤ 0 ∧ Inv k s) hnl ?_ ?_
  · unfold raySlant
    rcases this with ⟨s, e, -, h2, h3, h4⟩ | ⟨s, e, k, hk1, hk2, hk3, -, h2, h3, h4⟩
    · rw [e]; exact ⟨I.nl, hnl, le_rfl, fun h => absurd h (lt_irrefl _), h2, h3, h4⟩
    · rw [e]; exact ⟨k, hk1, hk2.le, fun _ => hk3, h2, h3, h4⟩
  · refine ⟨?_, fun i h1 h2 => by omega, fun i _ => rfl, fun i h1 h2 => by omega⟩
    intro L hL
    simp only [rayInit, Option.map_eq_some_iff] at hL
    obtain ⟨tn, -, rfl⟩ := hL
    exact hr0
  · intro k s hk1 hk2 hI
    by_cases hd : I.argth k ≤ 0
    · right
      refine ⟨s, ?_, k, hk1, hk2, hd, hI⟩
      unfold rayBody; rw [if_pos hd]
    · left
      refine ⟨_, by unfold rayBody; rw [if_neg hd], ?_, ?_, ?_, ?_⟩
      · intro L hL
        simp only [Option.map_eq_some_iff, Option.bind_eq_some_iff] at hL
        obtain ⟨⟨d, L', dt⟩, ⟨L0, h0, h1⟩, rfl⟩ := hL
        obtain ⟨_, _, _, _, -, -, -, e, -⟩ := rayLayer_some h1
        simpa using e
      · intro i h1 h2
        rcases Nat.lt_or_ge i k with h | h
        · exact hI.2.1 i h1 h
        · obtain rfl : i = k := by omega
          exact not_le.1 hd
      · intro i hi
        have hne : i ≠ k := by omega
        simp only [Function.update_of_ne hne]
        exact hI.2.2.1 i (by omega)
      · intro i h1 h2
        rcases Nat.lt_or_ge i k with h | h
        · have hne : i ≠ k := by omega
          simp only [Function.update_of_ne hne]
          exact hI.2.2.2 i h1 h
        · obtain rfl : i = k := by omega
          simp only [Function.update_self]
          cases hl : s.low with
          | none => left; exact ⟨rfl, rfl⟩
          | some L =>
            cases hr : rayLayer I i L with
            | none => left; simp [hr]
            | some q =>
              obtain ⟨d, L', dt⟩ := q
              right
              exact ⟨L, d, L', dt, by simp [hr], by simp [hr], hP _ _ _ _ _ hr, hI.1 L hl⟩

end Verif.Model
