import Verif.Spec.Radiance
import Mathlib.Tactic.Linarith
import Mathlib.Tactic.Ring
import Mathlib.Tactic.FieldSimp
import Mathlib.Tactic.Positivity
import Mathlib.Algebra.Order.BigOperators.Group.Finset

/-! # Facts about the slab radiance specification -/

namespace Verif.Spec

open Finset Real

variable {B B' τ : ℕ → ℝ} {n m i : ℕ}

theorem Icc_succ_top' {a b : ℕ} (h : a ≤ b + 1) (f : ℕ → ℝ) :
    ∑ k ∈ Icc a (b + 1), f k = (∑ k ∈ Icc a b, f k) + f (b + 1) :=
  sum_Icc_succ_top h f

theorem Icc_bot {a b : ℕ} (h : a ≤ b) (f : ℕ → ℝ) :
    ∑ k ∈ Icc a b, f k = f a + ∑ k ∈ Icc (a + 1) b, f k := by
  have : Icc a b = insert a (Icc (a + 1) b) := by ext x; simp; omega
  rw [this, sum_insert (by simp)]

@[simp] theorem opacityBelow_zero : opacityBelow τ 0 = 0 := by simp [opacityBelow]
theorem opacityBelow_succ : opacityBelow τ (i + 1) = opacityBelow τ i + τ (i + 1) := by
  unfold opacityBelow; exact Icc_succ_top' (by omega) _
@[simp] theorem opacityAbove_self : opacityAbove τ n n = 0 := by simp [opacityAbove]
theorem opacityAbove_step (h : i < n) : opacityAbove τ n i = τ (i + 1) + opacityAbove τ n (i + 1) := by
  unfold opacityAbove; exact Icc_bot (by omega) _
theorem opacityAbove_zero : opacityAbove τ n 0 = opacityBelow τ n := rfl

@[simp] theorem skyRadiance_zero : skyRadiance B τ 0 = 0 := by simp [skyRadiance]
theorem skyRadiance_succ : skyRadiance B τ (i + 1) = skyRadiance B τ i +
    layerSource (B i) (B (i + 1)) (τ (i + 1)) * (transDown τ i - transDown τ (i + 1)) := by
  unfold skyRadiance; rw [Icc_succ_top' (by omega)]; simp
@[simp] theorem upRadiance_self : upRadiance B τ n n = 0 := by simp [upRadiance]
theorem upRadiance_step (h : i < n) : upRadiance B τ n i =
    layerSource (B (i + 1)) (B i) (τ (i + 1)) * (transUp τ n (i + 1) - transUp τ n i)
      + upRadiance B τ n (i + 1) := by
  unfold upRadiance; rw [Icc_bot (by omega)]; simp

theorem opacityBelow_nonneg (h : ∀ i, 1 ≤ i → i ≤ n → 0 ≤ τ i) : 0 ≤ opacityBelow τ n :=
  sum_nonneg fun i hi => by simp at hi; exact h i hi.1 hi.2

theorem transDown_pos : 0 < transDown τ i := exp_pos _
theorem transUp_pos : 0 < transUp τ n i := exp_pos _
@[simp] theorem transDown_zero : transDown τ 0 = 1 := by simp [transDown]
@[simp] theorem transUp_self : transUp τ n n = 1 := by simp [transUp]

theorem transDown_succ : transDown τ (i + 1) = transDown τ i * exp (-τ (i + 1)) := by
  unfold transDown; rw [opacityBelow_succ, ← exp_add]; congr 1; ring
theorem transUp_step (h : i < n) : transUp τ n i = transUp τ n (i + 1) * exp (-τ (i + 1)) := by
  unfold transUp; rw [opacityAbove_step h, ← exp_add]; congr 1; ring

theorem transDown_anti (h : 0 ≤ τ (i + 1)) : transDown τ (i + 1) ≤ transDown τ i := by
  unfold transDown; rw [exp_le_exp, opacityBelow_succ]; linarith
theorem transUp_mono (hi : i < n) (h : 0 ≤ τ (i + 1)) : transUp τ n i ≤ transUp τ n (i + 1) := by
  unfold transUp; rw [exp_le_exp, opacityAbove_step hi]; linarith

theorem layerSource_mono {a a' b b' t : ℝ} (ha : a ≤ a') (hb : b ≤ b') :
    layerSource a b t ≤ layerSource a' b' t := by
  unfold layerSource
  have := exp_pos (-t)
  gcongr

theorem layerSource_const {a t : ℝ} : layerSource a a t = a := by
  unfold layerSource
  have := exp_pos (-t)
  have h : (1 + exp (-t)) ≠ 0 := by positivity
  field_simp

theorem layerSource_le {a b t M : ℝ} (ha : a ≤ M) (hb : b ≤ M) : layerSource a b t ≤ M :=
  (layerSource_mono ha hb).trans_eq layerSource_const
theorem le_layerSource {a b t m : ℝ} (ha : m ≤ a) (hb : m ≤ b) : m ≤ layerSource a b t :=
  layerSource_const.symm.trans_le (layerSource_mono ha hb)

/-- Downwelling radiance is monotone in the level radiances. -/
theorem skyRadiance_mono (hτ : ∀ i, 1 ≤ i → i ≤ n → 0 ≤ τ i) (hB : ∀ i ≤ n, B i ≤ B' i) :
    skyRadiance B τ n ≤ skyRadiance B' τ n := by
  induction n with
  | zero => simp
  | succ n ih =>
    rw [skyRadiance_succ, skyRadiance_succ]
    have h1 := ih (fun i h h' => hτ i h (by omega)) (fun i h => hB i (by omega))
    have h2 := transDown_anti (hτ (n + 1) (by omega) le_rfl)
    have h3 : layerSource (B n) (B (n+1)) (τ (n+1)) ≤ layerSource (B' n) (B' (n+1)) (τ (n+1)) :=
      layerSource_mono (hB n (by omega)) (hB (n+1) le_rfl)
    have := mul_le_mul_of_nonneg_right h3 (sub_nonneg.2 h2)
    linarith

theorem skyRadiance_const (c : ℝ) : skyRadiance (fun _ => c) τ n = c * (1 - transDown τ n) := by
  induction n with
  | zero => simp
  | succ n ih => rw [skyRadiance_succ, ih, layerSource_const]; ring

theorem skyRadiance_congr (h : ∀ i ≤ n, B i = B' i) : skyRadiance B τ n = skyRadiance B' τ n := by
  unfold skyRadiance
  refine sum_congr rfl fun i hi => ?_
  simp at hi
  rw [h i hi.2, h (i - 1) (by omega)]

theorem upRadiance_mono (hτ : ∀ i, m < i → i ≤ n → 0 ≤ τ i) (hB : ∀ i ≤ n, B i ≤ B' i)
    : upRadiance B τ n m ≤ upRadiance B' τ n m := by
  unfold upRadiance
  refine sum_le_sum fun i hi => ?_
  simp at hi
  obtain ⟨k, rfl⟩ : ∃ k, i = k + 1 := ⟨i - 1, by omega⟩
  simp only [Nat.add_sub_cancel]
  refine mul_le_mul_of_nonneg_right (layerSource_mono (hB _ hi.2) (hB _ (by omega))) ?_
  exact sub_nonneg.2 (transUp_mono (by omega) (hτ _ (by omega) hi.2))

theorem upRadiance_const (c : ℝ) (h : m ≤ n) :
    upRadiance (fun _ => c) τ n m = c * (1 - transUp τ n m) := by
  induction h using Nat.decreasingInduction with
  | self => simp
  | of_succ k hk ih => rw [upRadiance_step hk, ih, layerSource_const]; ring

theorem upRadiance_congr (h : ∀ i ≤ n, B i = B' i) : upRadiance B τ n m = upRadiance B' τ n m := by
  unfold upRadiance
  refine sum_congr rfl fun i hi => ?_
  simp at hi
  rw [h i hi.2, h (i - 1) (by omega)]

/-- Downwelling radiance between bounds of the level radiances. -/
theorem skyRadiance_bounds {lo hi : ℝ} (hτ : ∀ i, 1 ≤ i → i ≤ n → 0 ≤ τ i)
    (hB : ∀ i ≤ n, lo ≤ B i ∧ B i ≤ hi) :
    lo * (1 - transDown τ n) ≤ skyRadiance B τ n ∧ skyRadiance B τ n ≤ hi * (1 - transDown τ n) := by
  rw [← skyRadiance_const lo, ← skyRadiance_const hi]
  exact ⟨skyRadiance_mono hτ fun i h => (hB i h).1, skyRadiance_mono hτ fun i h => (hB i h).2⟩

theorem upRadiance_bounds {lo hi : ℝ} (hτ : ∀ i, 1 ≤ i → i ≤ n → 0 ≤ τ i)
    (hB : ∀ i ≤ n, lo ≤ B i ∧ B i ≤ hi) :
    lo * (1 - transDown τ n) ≤ upRadiance B τ n 0 ∧ upRadiance B τ n 0 ≤ hi * (1 - transDown τ n) := by
  have e : transDown τ n = transUp τ n 0 := rfl
  rw [e, ← upRadiance_const lo (Nat.zero_le n), ← upRadiance_const hi (Nat.zero_le n)]
  exact ⟨upRadiance_mono (fun i h => hτ i (by omega)) fun i h => (hB i h).1,
    upRadiance_mono (fun i h => hτ i (by omega)) fun i h => (hB i h).2⟩

theorem transDown_le_one (h : ∀ i, 1 ≤ i → i ≤ n → 0 ≤ τ i) : transDown τ n ≤ 1 := by
  unfold transDown; rw [exp_le_one_iff]; linarith [opacityBelow_nonneg h]

theorem opacityAbove_reverse {τ' : ℕ → ℝ} (hτ : ∀ i, 1 ≤ i → i ≤ n → τ' i = τ (n + 1 - i))
    (hi : i ≤ n) : opacityAbove τ n i = opacityBelow τ' (n - i) := by
  induction hi using Nat.decreasingInduction with
  | self => simp
  | of_succ k hk ih =>
    rw [opacityAbove_step hk, ih]
    obtain ⟨d, rfl⟩ : ∃ d, n = k + 1 + d := ⟨n - (k + 1), by omega⟩
    have h1 : k + 1 + d - (k + 1) = d := by omega
    have h2 : k + 1 + d - k = d + 1 := by omega
    rw [h1, h2, opacityBelow_succ, hτ (d + 1) (by omega) (by omega)]
    have h3 : k + 1 + d + 1 - (d + 1) = k + 1 := by omega
    rw [h3]; ring

/-- Up/down reciprocity of the specification. -/
theorem upRadiance_reverse {τ' : ℕ → ℝ} (hτ : ∀ i, 1 ≤ i → i ≤ n → τ' i = τ (n + 1 - i))
    (hB : ∀ i ≤ n, B' i = B (n - i)) (hi : i ≤ n) :
    upRadiance B τ n i = skyRadiance B' τ' (n - i) := by
  have tr : ∀ j ≤ n, transUp τ n j = transDown τ' (n - j) := fun j hj => by
    unfold transUp transDown; rw [opacityAbove_reverse hτ hj]
  induction hi using Nat.decreasingInduction with
  | self => simp
  | of_succ k hk ih =>
    rw [upRadiance_step hk, ih, tr k (by omega), tr (k + 1) hk]
    obtain ⟨d, rfl⟩ : ∃ d, n = k + 1 + d := ⟨n - (k + 1), by omega⟩
    have h1 : k + 1 + d - (k + 1) = d := by omega
    have h2 : k + 1 + d - k = d + 1 := by omega
    have h3 : k + 1 + d + 1 - (d + 1) = k + 1 := by omega
    rw [h1, h2, skyRadiance_succ, hτ (d + 1) (by omega) (by omega), hB d (by omega),
      hB (d + 1) (by omega), h3]
    have h4 : k + 1 + d - d = k + 1 := by omega
    have h5 : k + 1 + d - (d + 1) = k := by omega
    rw [h4, h5]; ring

end Verif.Spec

namespace Verif.Spec
open Finset Real
variable {B B' τ τ' : ℕ → ℝ} {n m i c d : ℕ}

theorem opacityBelow_stack : opacityBelow τ (c + d) =
    opacityBelow τ c + opacityBelow (fun i => τ (i + c)) d := by
  induction d with
  | zero => simp
  | succ d ih =>
    rw [← add_assoc, opacityBelow_succ, ih, opacityBelow_succ]
    have : d + 1 + c = c + d + 1 := by omega
    simp only [this]; ring

theorem transDown_stack : transDown τ (c + d) =
    transDown τ c * transDown (fun i => τ (i + c)) d := by
  unfold transDown; rw [opacityBelow_stack, ← exp_add]; congr 1; ring

/-- Cutting a profile at level `c`. -/
theorem skyRadiance_stack : skyRadiance B τ (c + d) = skyRadiance B τ c +
    transDown τ c * skyRadiance (fun i => B (i + c)) (fun i => τ (i + c)) d := by
  induction d with
  | zero => simp
  | succ d ih =>
    rw [← add_assoc, skyRadiance_succ, ih, skyRadiance_succ, transDown_stack,
      show c + d + 1 = c + (d + 1) from rfl, transDown_stack]
    have h1 : d + 1 + c = c + (d + 1) := by omega
    have h2 : d + c = c + d := by omega
    simp only [h1, h2]; ring

theorem opacityBelow_congr (h : ∀ i, 1 ≤ i → i ≤ n → τ i = τ' i) :
    opacityBelow τ n = opacityBelow τ' n :=
  sum_congr rfl fun i hi => by simp at hi; exact h i hi.1 hi.2

theorem skyRadiance_congr2 (h : ∀ i ≤ n, B i = B' i) (hτ : ∀ i, 1 ≤ i → i ≤ n → τ i = τ' i) :
    skyRadiance B τ n = skyRadiance B' τ' n := by
  induction n with
  | zero => simp
  | succ n ih =>
    have e : ∀ k ≤ n + 1, transDown τ k = transDown τ' k := fun k hk => by
      unfold transDown; rw [opacityBelow_congr fun i h1 h2 => hτ i h1 (by omega)]
    rw [skyRadiance_succ, skyRadiance_succ, ih (fun i hi => h i (by omega))
      (fun i h1 h2 => hτ i h1 (by omega)), h n (by omega), h (n + 1) le_rfl, e n (by omega),
      e (n + 1) le_rfl, hτ (n + 1) (by omega) le_rfl]

theorem opacityAbove_congr (h : ∀ i, 1 ≤ i → i ≤ n → τ i = τ' i) :
    opacityAbove τ n m = opacityAbove τ' n m :=
  sum_congr rfl fun i hi => by simp at hi; exact h i (by omega) hi.2

theorem upRadiance_congr2 (h : ∀ i ≤ n, B i = B' i) (hτ : ∀ i, 1 ≤ i → i ≤ n → τ i = τ' i) :
    upRadiance B τ n m = upRadiance B' τ' n m := by
  unfold upRadiance transUp
  refine sum_congr rfl fun i hi => ?_
  simp at hi
  rw [h i hi.2, h (i - 1) (by omega), opacityAbove_congr hτ, opacityAbove_congr hτ,
    hτ i (by omega) hi.2]

/-- Level `k` doubled, the new layer `k+1` in between being transparent. -/
theorem insertLayer_sky {k : ℕ} (hB : ∀ i, B' i = if i ≤ k then B i else B (i - 1))
    (hτ : ∀ i, τ' i = if i ≤ k then τ i else if i = k + 1 then 0 else τ (i - 1)) (hk : k ≤ n) :
    opacityBelow τ' (n + 1) = opacityBelow τ n ∧ skyRadiance B' τ' (n + 1) = skyRadiance B τ n := by
  have h0 : opacityBelow τ' k = opacityBelow τ k ∧ skyRadiance B' τ' k = skyRadiance B τ k := by
    constructor
    · exact opacityBelow_congr fun i _ h => by rw [hτ, if_pos h]
    · exact skyRadiance_congr2 (fun i h => by rw [hB, if_pos h]) (fun i _ h => by rw [hτ, if_pos h])
  induction n, hk using Nat.le_induction with
  | base =>
    have hz : τ' (k + 1) = 0 := by rw [hτ]; simp
    have ho : opacityBelow τ' (k + 1) = opacityBelow τ k := by
      rw [opacityBelow_succ, h0.1, hz, add_zero]
    refine ⟨ho, ?_⟩
    rw [skyRadiance_succ, h0.2]; unfold transDown; rw [ho, h0.1]; ring
  | succ n hn ih =>
    have e1 : τ' (n + 1 + 1) = τ (n + 1) := by
      rw [hτ, if_neg (by omega), if_neg (by omega)]; rfl
    have e2 : B' (n + 1 + 1) = B (n + 1) := by rw [hB, if_neg (by omega)]; rfl
    have e3 : B' (n + 1) = B n := by rw [hB, if_neg (by omega)]; rfl
    have ho : opacityBelow τ' (n + 1 + 1) = opacityBelow τ (n + 1) := by
      rw [opacityBelow_succ, ih.1, e1, opacityBelow_succ]
    refine ⟨ho, ?_⟩
    rw [skyRadiance_succ, ih.2, skyRadiance_succ, e1, e2, e3]
    unfold transDown; rw [ho, ih.1]

theorem upRadiance_zero_eq_reverse :
    upRadiance B τ n 0 = skyRadiance (fun i => B (n - i)) (fun i => τ (n + 1 - i)) n :=
  upRadiance_reverse (fun _ _ _ => rfl) (fun _ _ => rfl) (Nat.zero_le n)

theorem insertLayer_up {k : ℕ} (hB : ∀ i, B' i = if i ≤ k then B i else B (i - 1))
    (hτ : ∀ i, τ' i = if i ≤ k then τ i else if i = k + 1 then 0 else τ (i - 1)) (hk : k ≤ n) :
    upRadiance B' τ' (n + 1) 0 = upRadiance B τ n 0 := by
  rw [upRadiance_zero_eq_reverse, upRadiance_zero_eq_reverse]
  set Br : ℕ → ℝ := fun i => B (n - i)
  set τr : ℕ → ℝ := fun i => τ (n + 1 - i)
  rw [← (insertLayer_sky (B := Br) (τ := τr) (k := n - k)
    (B' := fun i => if i ≤ n - k then Br i else Br (i - 1))
    (τ' := fun i => if i ≤ n - k then τr i else if i = n - k + 1 then 0 else τr (i - 1))
    (fun _ => rfl) (fun _ => rfl) (Nat.sub_le n k)).2]
  refine skyRadiance_congr2 ?_ ?_
  · intro i hi
    simp only [Br, hB]
    split_ifs with h1 h2 h2
    · obtain rfl : i = n + 1 - k := by omega
      omega
    · congr 1; omega
    · congr 1; omega
    · have : i = n - k + 0 := by omega
      congr 1; omega
  · intro i h1 hi
    simp only [τr, hτ]
    split_ifs <;> first | rfl | (congr 1; omega)

end Verif.Spec
