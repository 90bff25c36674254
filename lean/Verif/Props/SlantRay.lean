import Verif.Lemmas.RaySnell
import Verif.Props.RayTracing
import Verif.Props.FullSky

/-!
# Slant rays through a refracting atmosphere (C108)
-/

namespace Verif.Props

open Verif.Model Verif.Py Verif.Spec Real

/-- A ray with an elevation between 0 and 89 degrees through an atmosphere whose levels lie above the antenna: no level traps the
ray (`n r` is at least its value at the antenna), none is so high that the ray would pass the vertical, and no layer
bends it by a full turn. -/
structure FreeRay (I : RayIn) : Prop where
  nl : 1 ≤ I.nl
  up : 0 < I.angle
  slant : I.angle < 89
  z0 : I.z 0 = 0
  rs : 0 < radius I.z0 0
  z : ∀ i < I.nl, 0 ≤ I.z i
  index : ∀ i < I.nl, 1 ≤ I.refindx i
  free : ∀ i < I.nl, I.refindx 0 * radius I.z0 0 ≤ I.refindx i * radius I.z0 (I.z i)
  low : ∀ i < I.nl, I.refindx i * I.z i < I.refindx 0 * radius I.z0 0 * cos (rad I.angle)
  bend : ∀ i, i + 1 < I.nl → |I.refindx i - I.refindx (i + 1)| * cos (rad I.angle) < 2 * π * sin (rad I.angle)

/-- The same in the terms of the program. -/
structure Mild (I : RayIn) : Prop where
  nl : 1 ≤ I.nl
  up : 0 < I.angle
  slant : I.angle < 89
  z0 : I.z 0 = 0
  rs : 0 < I.rs
  z : ∀ i < I.nl, 0 ≤ I.z i
  index : ∀ i < I.nl, 1 ≤ I.refindx i
  free : ∀ i < I.nl, I.refindx 0 * I.rs ≤ I.refindx i * I.r i
  low : ∀ i < I.nl, I.refindx i * I.z i < I.refindx 0 * I.rs * cos I.theta0
  bend : ∀ i, i + 1 < I.nl → |I.refindx i - I.refindx (i + 1)| * cos I.theta0 < 2 * π * sin I.theta0

theorem r_eq (I : RayIn) (i : ℕ) : I.r i = radius I.z0 (I.z i) := rfl

theorem rs_eq {I : RayIn} (h : I.z 0 = 0) : I.rs = radius I.z0 0 := by rw [← h]; rfl

theorem FreeRay.mild {I : RayIn} (H : FreeRay I) : Mild I := by
  have h := rs_eq H.z0
  refine ⟨H.nl, H.up, H.slant, H.z0, h ▸ H.rs, H.z, H.index, fun i hi => ?_, fun i hi => ?_, H.bend⟩
  · rw [h, r_eq]; exact H.free i hi
  · rw [h]; exact H.low i hi

/-- Elevation of the traced ray at level `i`. -/
noncomputable def elevation (I : RayIn) (i : ℕ) : ℝ :=
  if i = 0 then I.theta0 else match I.thetas i with | some p => p.1 | none => 0

/-- Accumulated bending. -/
noncomputable def bending (I : RayIn) : ℕ → ℝ
  | 0 => 0
  | i + 1 => bending I i + (1 / tan (elevation I (i + 1)) + 1 / tan (elevation I i)) / 2 *
      (I.refindx i - I.refindx (i + 1)) / meanIndex (I.refindx (i + 1)) (I.refindx i)

/-- Increments of the traced path. -/
noncomputable def increment (I : RayIn) (i : ℕ) : ℝ :=
  chord (I.r i) (I.r (i - 1)) (elevation I i + bending I i - (elevation I (i - 1) + bending I (i - 1))) *
    arcOverChord (bending I i - bending I (i - 1))

theorem meanIndex_pos {n n' : ℝ} (h : 1 ≤ n) (h' : 1 ≤ n') : 1 ≤ meanIndex n n' := by
  unfold meanIndex
  split_ifs with hc
  · linarith
  · push Not at hc
    obtain ⟨hne, h1, h1'⟩ := hc
    have a : 0 < n - 1 := by have := lt_of_le_of_ne h (Ne.symm h1); linarith
    have b : 0 < n' - 1 := by have := lt_of_le_of_ne h' (Ne.symm h1'); linarith
    rcases lt_or_gt_of_ne hne with hl | hl
    · have : 0 < log ((n' - 1) / (n - 1)) := log_pos (by rw [lt_div_iff₀ a]; linarith)
      have := div_pos (by linarith : 0 < n' - n) this
      linarith
    · have : log ((n' - 1) / (n - 1)) < 0 := log_neg (by positivity) (by rw [div_lt_one a]; linarith)
      have := div_pos_of_neg_of_neg (by linarith : n' - n < 0) this
      linarith

theorem refbar_mean {I : RayIn} {i : ℕ} (h : 1 ≤ I.refindx i) (h' : 1 ≤ I.refindx (i - 1)) :
    I.refbar i = some (meanIndex (I.refindx i) (I.refindx (i - 1))) := by
  unfold RayIn.refbar meanIndex
  simp only [norm_one]
  split_ifs with hc
  · norm_num
    ring
  · push Not at hc
    obtain ⟨hne, h1, h1'⟩ := hc
    have a : 0 < I.refindx i - 1 := by have := lt_of_le_of_ne h (Ne.symm h1); linarith
    have b : 0 < I.refindx (i - 1) - 1 := by have := lt_of_le_of_ne h' (Ne.symm h1'); linarith
    have hl : log ((I.refindx (i - 1) - 1) / (I.refindx i - 1)) ≠ 0 := by
      apply log_ne_zero_of_pos_of_ne_one (by positivity)
      rw [Ne, div_eq_one_iff_eq a.ne']
      intro h; apply hne; linarith
    have e1 : npDiv (I.refindx (i - 1) - 1) (I.refindx i - 1) = some ((I.refindx (i - 1) - 1) / (I.refindx i - 1)) :=
      npDiv_eq_some.2 ⟨a.ne', rfl⟩
    have e2 : npLog ((I.refindx (i - 1) - 1) / (I.refindx i - 1)) = some (log ((I.refindx (i - 1) - 1) / (I.refindx i - 1))) := by
      unfold npLog
      rw [if_pos (by positivity)]
    have e3 := npDiv_eq_some (a := I.refindx (i - 1) - I.refindx i).2 ⟨hl, rfl⟩
    simp only [e1, e2, e3, Option.bind_eq_bind, Option.bind_some, Option.pure_def]

section
variable {I : RayIn}

theorem theta0_range (H : Mild I) : 0 < I.theta0 ∧ I.theta0 < π / 2 := by
  have h1 := H.up
  have h2 := H.slant
  unfold RayIn.theta0
  constructor
  · have := pi_pos; positivity
  · have := pi_pos; nlinarith

/-- The elevation at a level. -/
theorem elevation_spec (H : Mild I) {i : ℕ} (hi : i < I.nl) :
    I.theta0 ≤ elevation I i ∧ elevation I i < π / 2 ∧
      (1 ≤ i → 0 < I.argth i ∧ I.thetas i = some (elevation I i, elevation I i - I.theta0)) := by
  obtain ⟨h0, h1⟩ := theta0_range H
  rcases Nat.eq_zero_or_pos i with rfl | hpos
  · simp only [elevation, if_true]
    exact ⟨le_rfl, h1, fun h => by omega⟩
  · obtain ⟨ha, -, -, θ, hθ, h2, h3, -⟩ := thetas_snell h0 h1 H.z0 H.rs (H.index 0 H.nl) (H.index i hi) (H.z i hi) (H.free i hi)
      (H.low i hi)
    have e : elevation I i = θ := by unfold elevation; rw [if_neg (by omega), hθ]
    rw [e]
    exact ⟨h2, h3, fun _ => ⟨ha, hθ⟩⟩

/-- Bending of a layer. -/
theorem bending_lt (H : Mild I) {i : ℕ} (hi : i + 1 < I.nl) : |bending I (i + 1) - bending I i| < 2 * π := by
  obtain ⟨h0, h1⟩ := theta0_range H
  obtain ⟨a1, a2, -⟩ := elevation_spec H hi
  obtain ⟨b1, b2, -⟩ := elevation_spec H (Nat.lt_of_succ_lt hi)
  have hm := meanIndex_pos (H.index (i + 1) hi) (H.index i (Nat.lt_of_succ_lt hi))
  have cot_le : ∀ x, I.theta0 ≤ x → x < π / 2 → 0 ≤ 1 / tan x ∧ 1 / tan x ≤ cos I.theta0 / sin I.theta0 := by
    intro x hx hx'
    have t0 := tan_pos_of_pos_of_lt_pi_div_two h0 h1
    have tx : tan I.theta0 ≤ tan x := by
      rcases hx.eq_or_lt with rfl | h
      · exact le_rfl
      · exact (tan_lt_tan_of_nonneg_of_lt_pi_div_two h0.le hx' h).le
    refine ⟨by have := t0.trans_le tx; positivity, ?_⟩
    have : cos I.theta0 / sin I.theta0 = 1 / tan I.theta0 := by rw [tan_eq_sin_div_cos, one_div_div]
    rw [this]
    exact one_div_le_one_div_of_le t0 tx
  obtain ⟨c1, c2⟩ := cot_le _ a1 a2
  obtain ⟨c3, c4⟩ := cot_le _ b1 b2
  have hs : 0 < sin I.theta0 := sin_pos_of_pos_of_lt_pi h0 (by linarith)
  have e : bending I (i + 1) - bending I i = (1 / tan (elevation I (i + 1)) + 1 / tan (elevation I i)) / 2 *
      (I.refindx i - I.refindx (i + 1)) / meanIndex (I.refindx (i + 1)) (I.refindx i) := by
    simp only [bending]; ring
  rw [e, abs_div, abs_mul, abs_of_nonneg (by linarith : 0 ≤ (1 / tan (elevation I (i + 1)) + 1 / tan (elevation I i)) / 2),
    abs_of_pos (by linarith : 0 < meanIndex (I.refindx (i + 1)) (I.refindx i))]
  calc (1 / tan (elevation I (i + 1)) + 1 / tan (elevation I i)) / 2 * |I.refindx i - I.refindx (i + 1)| /
        meanIndex (I.refindx (i + 1)) (I.refindx i)
      ≤ (1 / tan (elevation I (i + 1)) + 1 / tan (elevation I i)) / 2 * |I.refindx i - I.refindx (i + 1)| :=
        div_le_self (by positivity) hm
    _ ≤ cos I.theta0 / sin I.theta0 * |I.refindx i - I.refindx (i + 1)| :=
        mul_le_mul_of_nonneg_right (by linarith) (abs_nonneg _)
    _ < 2 * π := by
        rw [div_mul_eq_mul_div, div_lt_iff₀ hs, mul_comm (cos I.theta0)]
        exact H.bend i hi

/-- One layer of the loop. -/
theorem layer_eq (H : Mild I) {i : ℕ} (h1 : 1 ≤ i) (hi : i < I.nl) :
    rayLayer I i ⟨elevation I (i - 1) + bending I (i - 1) - I.theta0, bending I (i - 1), I.r (i - 1), tan (elevation I (i - 1))⟩ =
      some (increment I i, ⟨elevation I i + bending I i - I.theta0, bending I i, I.r i, tan (elevation I i)⟩,
        bending I i - bending I (i - 1)) := by
  obtain ⟨t0, t1⟩ := theta0_range H
  obtain ⟨a1, a2, a3⟩ := elevation_spec H hi
  obtain ⟨b1, b2, -⟩ := elevation_spec H (by omega : i - 1 < I.nl)
  obtain ⟨-, hth⟩ := a3 h1
  have hidx := H.index i hi
  have hidx' := H.index (i - 1) (by omega)
  have hrb := refbar_mean hidx hidx'
  have hm := meanIndex_pos hidx hidx'
  have hbend := bending_lt H (i := i - 1) (by omega)
  rw [Nat.sub_add_cancel h1] at hbend
  have hbe : bending I i = bending I (i - 1) + (1 / tan (elevation I i) + 1 / tan (elevation I (i - 1))) / 2 *
      (I.refindx (i - 1) - I.refindx i) / meanIndex (I.refindx i) (I.refindx (i - 1)) := by
    obtain ⟨j, rfl⟩ : ∃ j, i = j + 1 := ⟨i - 1, by omega⟩
    simp only [bending, Nat.add_sub_cancel]
  have hc : 0 < cos (elevation I i) := cos_pos_of_mem_Ioo ⟨by linarith, a2⟩
  have htan : npTan (elevation I i) = some (tan (elevation I i)) := by
    unfold npTan
    rw [npDiv_eq_some]
    exact ⟨hc.ne', (tan_eq_sin_div_cos _).symm⟩
  have tp : 0 < tan (elevation I i) := tan_pos_of_pos_of_lt_pi_div_two (by linarith) a2
  have tp' : 0 < tan (elevation I (i - 1)) := tan_pos_of_pos_of_lt_pi_div_two (by linarith) b2
  have e1 : npDiv 1.0 (tan (elevation I i)) = some (1 / tan (elevation I i)) := by
    rw [npDiv_eq_some]; exact ⟨tp.ne', by norm_num⟩
  have e2 : npDiv 1.0 (tan (elevation I (i - 1))) = some (1 / tan (elevation I (i - 1))) := by
    rw [npDiv_eq_some]; exact ⟨tp'.ne', by norm_num⟩
  have e3 : npDiv ((1 / tan (elevation I i) + 1 / tan (elevation I (i - 1))) * 0.5 * (I.refindx (i - 1) - I.refindx i))
      (meanIndex (I.refindx i) (I.refindx (i - 1))) = some (bending I i - bending I (i - 1)) := by
    rw [npDiv_eq_some]
    refine ⟨by linarith, ?_⟩
    rw [hbe]
    norm_num
    ring
  set b := bending I i - bending I (i - 1) with hb
  have hbi : bending I (i - 1) + b = bending I i := by rw [hb]; ring
  have hri : 0 < I.r i := by
    have := H.z i hi
    have h0 := H.rs
    have hz := H.z0
    unfold RayIn.r RayIn.rs at *
    rw [hz] at h0
    linarith
  have hri' : 0 < I.r (i - 1) := by
    have := H.z (i - 1) (by omega)
    have h0 := H.rs
    have hz := H.z0
    unfold RayIn.r RayIn.rs at *
    rw [hz] at h0
    linarith
  have hrz : I.z i - I.z (i - 1) = I.r i - I.r (i - 1) := by unfold RayIn.r; ring
  set φ := elevation I i + bending I i - (elevation I (i - 1) + bending I (i - 1)) with hφ
  have e4 : npSqrt ((I.z i - I.z (i - 1)) ^ 2 + ((4.0 * I.r i) * I.r (i - 1)) *
      (sin ((elevation I i - I.theta0 + bending I i -
        (elevation I (i - 1) + bending I (i - 1) - I.theta0)) * 0.5)) ^ 2) = some (chord (I.r i) (I.r (i - 1)) φ) := by
    have e : (elevation I i - I.theta0 + bending I i - (elevation I (i - 1) + bending I (i - 1) - I.theta0)) * 0.5 =
        φ / 2 := by rw [hφ]; norm_num; ring
    rw [e, npSqrt_eq_some, hrz]
    have e' : (4.0 : ℝ) = 4 := by norm_num
    rw [e']
    exact ⟨by positivity, rfl⟩
  have hinc : increment I i = chord (I.r i) (I.r (i - 1)) φ * arcOverChord b := rfl
  have hfin : (elevation I i - I.theta0 + bending I i) = elevation I i + bending I i - I.theta0 := by ring
  unfold rayLayer
  simp only [hrb, hth, htan, e1, e2, e3, e4, Option.bind_eq_bind, Option.bind_some, Option.pure_def, add_sub_cancel_left, hbi]
  simp only [hfin]
  by_cases hb0 : b = 0
  · rw [if_neg (by rw [hb0]; norm_num), hinc, hb0]
    simp [arcOverChord]
  · have hb0' : b ≠ 0.0 := by norm_num; exact hb0
    have hs : 0 < sin (|b| / 2) := sin_pos_of_pos_of_lt_pi (by have := abs_pos.2 hb0; linarith) (by linarith)
    have e5 : npDiv |b| (2.0 * sin (|b| * 0.5)) = some (arcOverChord b) := by
      rw [npDiv_eq_some]
      have e : |b| * 0.5 = |b| / 2 := by norm_num; ring
      rw [e]
      refine ⟨by norm_num; exact hs.ne', ?_⟩
      unfold arcOverChord
      rw [if_neg hb0]
      norm_num
    rw [if_pos hb0']
    simp only [e5, Option.bind_some, hinc]

/-- The traced path. -/
theorem traced_eq (H : Mild I) :
    rayTracing I = some fun i => some (if 1 ≤ i ∧ i < I.nl then increment I i else 0) := by
  have hnone : ¬ ∃ i < I.nl, I.refindx i < 1 := by push Not; exact H.index
  have hz : ¬ nearZenith I.angle := by
    unfold nearZenith
    have h1 := H.up
    have h2 := H.slant
    rintro (⟨h, -⟩ | ⟨-, h⟩) <;> linarith
  unfold rayTracing
  rw [if_neg hnone, if_neg hz]
  set Inv : ℕ → RayState → Prop := fun k s =>
    s.low = some ⟨elevation I (k - 1) + bending I (k - 1) - I.theta0, bending I (k - 1), I.r (k - 1), tan (elevation I (k - 1))⟩ ∧
    s.ds = fun i => some (if 1 ≤ i ∧ i < k then increment I i else 0) with hInv
  obtain ⟨t0, t1⟩ := theta0_range H
  have h0 : Inv 1 (rayInit I) := by
    refine ⟨?_, ?_⟩
    · have hc : cos I.theta0 ≠ 0 := (cos_pos_of_mem_Ioo ⟨by linarith, t1⟩).ne'
      have : npTan I.theta0 = some (tan I.theta0) := by
        unfold npTan
        rw [npDiv_eq_some]
        exact ⟨hc, (tan_eq_sin_div_cos _).symm⟩
      simp only [rayInit, this, Option.map_some, Nat.sub_self, elevation, if_true, bending, Option.some.injEq, RayLow.mk.injEq]
      exact ⟨by norm_num, by norm_num, rfl, trivial⟩
    · funext i
      rw [if_neg (by omega)]
      rfl
  have hs : ∀ k s, 1 ≤ k → k < I.nl → Inv k s →
      (∃ s', rayBody I k s = .ok s' ∧ Inv (k + 1) s') ∨ (∃ e, rayBody I k s = .error e ∧ False) := by
    intro k s hk1 hk2 ⟨hlow, hds⟩
    left
    have ha := ((elevation_spec H hk2).2.2 hk1).1
    have hl := layer_eq H hk1 hk2
    refine ⟨_, by unfold rayBody; rw [if_neg (not_le.2 ha)], ?_, ?_⟩
    · simp only [hlow, Option.bind_some, hl, Option.map_some, Nat.add_sub_cancel]
    · simp only [hlow, Option.bind_some, hl, Option.map_some, hds]
      funext i
      by_cases hik : i = k
      · subst hik
        rw [Function.update_self, if_pos ⟨hk1, Nat.lt_succ_self _⟩]
      · rw [Function.update_of_ne hik]
        congr 1
        have : (1 ≤ i ∧ i < k) ↔ (1 ≤ i ∧ i < k + 1) := by omega
        simp only [this]
  rcases forRangeE_inv (lo := 1) (hi := I.nl) (f := rayBody I) (s := rayInit I) Inv (fun _ => False) H.nl h0 hs with
    ⟨s, e, -, h⟩ | ⟨s, -, ⟨⟩⟩
  unfold raySlant
  rw [e]
  exact congrArg some h

theorem chord_ge {r r' φ : ℝ} (h : 0 < r) (h' : 0 < r') : |r - r'| ≤ chord r r' φ := by
  unfold chord
  rw [← Real.sqrt_sq_eq_abs]
  apply Real.sqrt_le_sqrt
  have : 0 ≤ 4 * r * r' * sin (φ / 2) ^ 2 := by positivity
  linarith

theorem arc_ge {b : ℝ} (h : |b| < 2 * π) : 1 ≤ arcOverChord b := by
  unfold arcOverChord
  split_ifs with hb
  · exact le_rfl
  · have hpos : 0 < |b| := abs_pos.2 hb
    have hs : 0 < sin (|b| / 2) := sin_pos_of_pos_of_lt_pi (by positivity) (by linarith)
    have hlt : sin (|b| / 2) < |b| / 2 := sin_lt (by positivity)
    rw [le_div_iff₀ (by positivity)]
    linarith

end

/-- **C108.** The traced path of a free slant ray: all increments are finite numbers, 0 at the antenna and at least the
thickness of the layer above.  They are the arcs between points of elevation `θ i`, bending `τ i` and central angle
`θ i - θ 0 + τ i`; the bending of a layer is its change of index times the mean cotangent of the elevation.  The elevations are
those of Snell's law, approximately: never below the initial one or beyond the vertical; up to about twice the initial one between
Snell's law and slightly less (a factor of `√(r 0 / r)` on the sine of a quarter of the change), above it with `1 - cos θ` too
large by the factor `r / r 0`. -/
theorem C108_traced {I : RayIn} (H : FreeRay I) :
    ∃ d θ τ : ℕ → ℝ, rayTracing I = some (fun i => some (d i)) ∧ (∀ i, i = 0 ∨ I.nl ≤ i → d i = 0) ∧
      θ 0 = rad I.angle ∧ τ 0 = 0 ∧ ∀ i, 1 ≤ i → i < I.nl →
        let r := fun j => radius I.z0 (I.z j)
        let θs := snell (I.refindx 0) (r 0) (θ 0) (I.refindx i) (r i)
        τ i = τ (i - 1) + (1 / tan (θ i) + 1 / tan (θ (i - 1))) / 2 * (I.refindx (i - 1) - I.refindx i) /
          meanIndex (I.refindx i) (I.refindx (i - 1)) ∧
        d i = chord (r i) (r (i - 1)) (θ i + τ i - (θ (i - 1) + τ (i - 1))) * arcOverChord (τ i - τ (i - 1)) ∧
        |I.z i - I.z (i - 1)| ≤ d i ∧
        θ 0 ≤ θ i ∧ θ i < π / 2 ∧ θ 0 ≤ θs ∧ θs < π / 2 ∧
        (cos (2 * θ 0) ≤ 1 - r i / r 0 * (1 - cos θs) →
          √(r 0 / r i) * sin ((θs - θ 0) / 4) ≤ sin ((θ i - θ 0) / 4) ∧ θ i ≤ θs) ∧
        (1 - r i / r 0 * (1 - cos θs) < cos (2 * θ 0) → 1 - cos (θ i) = r i / r 0 * (1 - cos θs)) := by
  have M := H.mild
  refine ⟨_, elevation I, bending I, traced_eq M, fun i hi => by rw [if_neg (by omega)], rfl, rfl, fun i h1 hi => ?_⟩
  intro r θs
  obtain ⟨t0, t1⟩ := theta0_range M
  have hpos : ∀ j < I.nl, 0 < r j := fun j hj => by
    have h := H.rs
    have hz := H.z j hj
    simp only [radius, r] at h ⊢
    linarith
  have hbend := bending_lt M (i := i - 1) (by omega)
  rw [Nat.sub_add_cancel h1] at hbend
  have hrz : I.z i - I.z (i - 1) = r i - r (i - 1) := by simp only [r, radius]; ring
  obtain ⟨-, s1, s2, θ, hθ, b1, b2, b3, b4⟩ := thetas_snell t0 t1 M.z0 M.rs (M.index 0 M.nl) (M.index i hi) (M.z i hi)
    (M.free i hi) (M.low i hi)
  have hel : elevation I i = θ := by unfold elevation; rw [if_neg (by omega), hθ]
  refine ⟨?_, ?_, ?_, ?_⟩
  · obtain ⟨j, rfl⟩ : ∃ j, i = j + 1 := ⟨i - 1, by omega⟩
    simp only [bending, Nat.add_sub_cancel]
  · rw [if_pos ⟨h1, hi⟩]; rfl
  · rw [if_pos ⟨h1, hi⟩, hrz]
    have c1 := chord_ge (φ := elevation I i + bending I i - (elevation I (i - 1) + bending I (i - 1))) (hpos i hi)
      (hpos (i - 1) (by omega))
    have c2 := arc_ge hbend
    exact c1.trans (le_mul_of_one_le_right ((abs_nonneg _).trans c1) c2)
  · rw [hel]
    exact ⟨b1, b2, s1, s2, b3, b4⟩

/-- Conditions on an atmosphere and an angle for the ray tracing of a simulation: up to 100 km above the antenna, refractivities
`10^6 (n - 1)` from 0 to 5000 that fall from the antenna to no level faster than by `10^6 n / r` (about 157 per km), elevation
between a tenth of a degree and 89 degrees. -/
structure Refracts (S : Settings) (N : ℕ → ℝ) (k : ℕ) : Prop where
  tracing : S.rayTracing = true
  nl : 1 ≤ S.nl
  low : 0.1 ≤ S.angles k
  high : S.angles k < 89
  z0 : 0 ≤ S.z0
  base : S.z 0 = 0
  z : ∀ i < S.nl, 0 ≤ S.z i ∧ S.z i ≤ 100
  units : ∀ i < S.nl, 0 ≤ N i ∧ N i ≤ 5000
  duct : ∀ i < S.nl, (N 0 - N i) * radius S.z0 0 ≤ 10 ^ 6 * S.z i

theorem Refracts.ray {S : Settings} {N : ℕ → ℝ} {k : ℕ} (H : Refracts S N k) :
    FreeRay ⟨S.nl, S.z, fun i => 1 + N i / 10 ^ 6, S.angles k, S.z0⟩ := by
  have hR : 6370 < radius S.z0 0 := by have := H.z0; unfold radius; linarith
  have hp := pi_pos
  have hp3 := pi_gt_three
  have hp4 := pi_lt_four
  have hl := H.low
  have hh := H.high
  set θ := rad (S.angles k) with hθ
  have hθ0 : S.angles k / 90 ≤ sin θ := by
    have h1 : θ ≤ π / 2 := by rw [hθ]; unfold rad; nlinarith
    have h0 : 0 ≤ θ := by rw [hθ]; unfold rad; positivity
    have := mul_le_sin h0 h1
    refine le_trans (le_of_eq ?_) this
    rw [hθ]; unfold rad; field_simp; norm_num
  have hcos : 0.017 < cos θ := by
    rw [← sin_pi_div_two_sub]
    have h1 : π / 180 ≤ π / 2 - θ := by rw [hθ]; unfold rad; nlinarith
    have h2 : π / 2 - θ ≤ π / 2 := by rw [hθ]; unfold rad; nlinarith
    have h3 : sin (π / 180) ≤ sin (π / 2 - θ) := sin_le_sin_of_le_of_le_pi_div_two (by linarith) h2 h1
    have h4 : π / 180 - (π / 180) ^ 3 / 6 < sin (π / 180) := sin_gt_sub_cube (by positivity)
    have h5 : 3.14 < π := pi_gt_d2
    have h6 : (π / 180) ^ 3 / 6 ≤ 0.0001 := by
      have : π / 180 ≤ 0.03 := by linarith
      have : (π / 180) ^ 3 ≤ 0.03 ^ 3 := pow_le_pow_left₀ (by positivity) this 3
      norm_num at this ⊢
      linarith
    norm_num at h5 h6 ⊢
    linarith
  have hcos1 : cos θ ≤ 1 := cos_le_one _
  refine ⟨H.nl, by simp only; linarith, H.high, H.base, by simp only; linarith, fun i hi => (H.z i hi).1, fun i hi => ?_,
    fun i hi => ?_, fun i hi => ?_, fun i hi => ?_⟩
  · have := (H.units i hi).1
    simp only
    linarith [show 0 ≤ N i / 10 ^ 6 by positivity]
  · have h1 := H.duct i hi
    have h2 := (H.units i hi).1
    have h3 := (H.z i hi).1
    have h4 : radius S.z0 (S.z i) = radius S.z0 0 + S.z i := by unfold radius; ring
    simp only [h4]
    have h5 : 0 ≤ N i * S.z i := mul_nonneg h2 h3
    nlinarith
  · have h2 := (H.units i hi).2
    have h3 := H.z i hi
    have h4 := (H.units 0 H.nl).1
    simp only
    have h5 : (1 + N i / 10 ^ 6) * S.z i ≤ 1.005 * 100 :=
      mul_le_mul (by linarith) h3.2 h3.1 (by norm_num)
    have h6 : 6370 * 0.017 ≤ (1 + N 0 / 10 ^ 6) * radius S.z0 0 * cos θ := by
      have h7 : (0:ℝ) ≤ N 0 / 10 ^ 6 := by positivity
      have h8 : 6370 ≤ (1 + N 0 / 10 ^ 6) * radius S.z0 0 := by nlinarith
      exact mul_le_mul h8 hcos.le (by norm_num) (by linarith)
    norm_num at h5 h6 ⊢
    linarith
  · have h1 := H.units i (Nat.lt_of_succ_lt hi)
    have h2 := H.units (i + 1) hi
    simp only
    have h3 : |1 + N i / 10 ^ 6 - (1 + N (i + 1) / 10 ^ 6)| ≤ 0.005 := by
      rw [abs_le]
      constructor <;> norm_num <;> linarith [h1.1, h1.2, h2.1, h2.2]
    have h4 : |1 + N i / 10 ^ 6 - (1 + N (i + 1) / 10 ^ 6)| * cos θ ≤ 0.005 * 1 :=
      mul_le_mul h3 hcos1 (by linarith) (by norm_num)
    have h5 : 0.001 ≤ sin θ := by norm_num at hl ⊢; linarith
    have h6 : 2 * 3 * 0.001 ≤ 2 * π * sin θ := mul_le_mul (by linarith) h5 (by norm_num) (by positivity)
    norm_num at h4 h6 ⊢
    linarith

/-- **C108.** A simulation with ray tracing gets a path for such an atmosphere and angle: the increments are those of the traced
ray, are numbers, and are not negative. -/
theorem C108_path {S : Settings} {N : ℕ → ℝ} {k : ℕ} (H : Refracts S N k) :
    ∃ d : ℕ → ℝ, rayTracing ⟨S.nl, S.z, fun i => 1 + N i / 10 ^ 6, S.angles k, S.z0⟩ = some (fun i => some (d i)) ∧
      pathOf S (fun i => 1 + N i / 10 ^ 6) k = .ok d ∧ d 0 = 0 ∧
      ∀ i, 1 ≤ i → i < S.nl → |S.z i - S.z (i - 1)| ≤ d i := by
  obtain ⟨d, θ, τ, h1, h2, -, -, h3⟩ := C108_traced H.ray
  refine ⟨d, h1, ?_, h2 0 (Or.inl rfl), fun i hi hn => (h3 i hi hn).2.2.1⟩
  unfold pathOf
  rw [if_pos H.tracing, h1]
  simp

/-- The refractivity at level `i`: dry and wet terms. -/
noncomputable def levelN (S : Settings) (i : ℕ) : ℝ :=
  let e := S.rh i * eswat (S.tk i)
  (refractivity1 (S.p i) (S.tk i) e).1 + (refractivity1 (S.p i) (S.tk i) e).2.1

/-- **C108.** The run: with ray tracing, angles between a tenth of a degree and 89 degrees and an atmosphere without ducts, the
path conditions of the theorems on whole simulations (C32, C98) hold. -/
theorem C108_goodPath {S : Settings} {k : ℕ} (hi : S.ice = false) (H : Refracts S (levelN S) k) : GoodPath S k := by
  intro e rho hv
  obtain ⟨e', rho', hv', he⟩ := vapor_eq hi
  rw [hv] at hv'
  cases hv'
  obtain ⟨d, -, h1, h2, h3⟩ := C108_path H
  have : (fun i => (refractivity1 (S.p i) (S.tk i) (e i)).2.2) = fun i => 1 + levelN S i / 10 ^ 6 := by
    funext i
    rw [he i]
    simp only [levelN, refractivity1]
    norm_num
    ring
  refine ⟨d, by rw [this]; exact h1, fun i hi => ?_⟩
  rcases Nat.eq_zero_or_pos i with rfl | h0
  · exact h2.ge
  · exact (abs_nonneg _).trans (h3 i h0 hi)

/-! ## A concrete input -/

/-- Three levels of dry air, two frequencies, ray tracing at elevations of 30 and 31 degrees. -/
noncomputable def slantS : Settings :=
  { realS false with rh := fun _ => 0, rayTracing := true, angles := fun k => 30 + k }

theorem slantS_refracts {k : ℕ} (hk : k < 2) : Refracts slantS (levelN slantS) k := by
  have h0 : 269 ≤ levelN slantS 0 ∧ levelN slantS 0 ≤ 270 := by
    norm_num [levelN, refractivity1, slantS, realS, demoS]
  have h1 : 247 ≤ levelN slantS 1 ∧ levelN slantS 1 ≤ 249 := by
    norm_num [levelN, refractivity1, slantS, realS, demoS]
  have h2 : 224 ≤ levelN slantS 2 ∧ levelN slantS 2 ≤ 226 := by
    norm_num [levelN, refractivity1, slantS, realS, demoS]
  refine ⟨rfl, by decide, ?_, ?_, by norm_num [slantS, realS, demoS], by norm_num [slantS, realS, demoS], fun i hi => ?_,
    fun i hi => ?_, fun i hi => ?_⟩
  · interval_cases k <;> norm_num [slantS]
  · interval_cases k <;> norm_num [slantS]
  · have hi' : i < 3 := hi
    interval_cases i <;> norm_num [slantS, realS, demoS]
  · have hi' : i < 3 := hi
    interval_cases i <;> constructor <;> linarith
  · have hi' : i < 3 := hi
    have hR : radius slantS.z0 0 = 6370.949 := by norm_num [radius, slantS, realS, demoS]
    have hz : slantS.z i = i := rfl
    rw [hR, hz]
    interval_cases i <;> norm_num <;> linarith

theorem slantS_good : GoodInput slantS where
  levels := by decide
  emissivity := (realS_good false).emissivity
  frq := (realS_good false).frq
  tk := (realS_good false).tk
  p := (realS_good false).p
  rh i _ := le_rfl
  vapour i hi := by
    simp only [slantS, zero_mul]
    exact ((realS_good false).p i hi).le
  ice := rfl
  amu := rfl
  path k hk := C108_goodPath rfl (slantS_refracts hk)

/-- The shipped simulator runs on it. -/
example : ∃ rows, (execute shipped (selected Globals.init "R24") ⟨slantS, Store.zero⟩).1 = .ok rows := by
  have h := C32_init_absmdl "R24" Globals.init (I := ⟨slantS, Store.zero⟩) slantS_good rfl
    (fun h => by simp [ozoneActive, Globals.init] at h) (realS_frq false)
  exact h.1 (by decide)

end Verif.Props
