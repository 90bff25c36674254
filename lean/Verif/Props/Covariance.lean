import Verif.Lemmas.Covariance
import Mathlib.Algebra.BigOperators.Field

/-!
# The shipped covariances of spectroscopic parameters (C111)
-/

namespace Verif.Props

open Verif.Model Verif.Py Verif.Lemmas Verif.Spec

/-- One of the three matrices of the package. -/
def Shipped (C : Cov) : Prop := C = covR17_111 ∨ C = covR17_112 ∨ C = covR19

/-- Covariances of the parameters from number 105 (counted from 0) on. -/
def others (C : Cov) (i j : ℕ) : ℝ := C.at' (105 + i) (105 + j)

theorem at_oxygen {C : Cov} (h : Shipped C) {i j : ℕ} (hi : i < 105) (hj : j < 105) :
    C.at' i j = (entry covOxygen i j : ℝ) / 2 ^ 50 := by
  rcases h with rfl | rfl | rfl <;> exact if_pos ⟨hi, hj⟩

theorem at_cross {C : Cov} (h : Shipped C) {i j : ℕ} (hi : i < 105) (hj : 105 ≤ j) : C.at' i j = 0 ∧ C.at' j i = 0 := by
  rcases h with rfl | rfl | rfl <;>
    exact ⟨(if_neg (by omega)).trans (if_neg (by omega)), (if_neg (by omega)).trans (if_neg (by omega))⟩

theorem covFile_others (n : ℕ) (W : List (List ℤ)) (i j : ℕ) :
    others (covFile n W) i j = (entry W i j : ℝ) / 2 ^ 158 := by
  unfold others covFile
  simp only [if_neg (show ¬ (105 + i < 105 ∧ 105 + j < 105) by omega),
    if_pos (show 105 ≤ 105 + i ∧ 105 ≤ 105 + j by omega), Nat.add_sub_cancel_left]
  rfl

theorem shipped_size {C : Cov} (h : Shipped C) : C.size = 105 + (C.size - 105) := by
  rcases h with rfl | rfl | rfl <;> rfl

/-- C111: what the computation of the documentation returns: an error if the Jacobian does not have one column for each
parameter, and otherwise for each frequency the root of the variance of the linearised brightness temperature, or nan if
that is negative. -/
theorem C111_sigma (C : Cov) (cols : ℕ) (K : ℕ → ℕ → ℝ) :
    (cols ≠ C.size → sigmaTb C cols K = .error .valueError) ∧
    (cols = C.size → ∃ S, sigmaTb C cols K = .ok S ∧ ∀ r,
      (0 ≤ variance C.size C.at' (K r) → S r = some (Real.sqrt (variance C.size C.at' (K r)))) ∧
      (variance C.size C.at' (K r) < 0 → S r = none)) := by
  constructor
  · intro h
    simp [sigmaTb, covTb, h, bind, Except.bind]
  · rintro rfl
    have e : ∀ r, (∑ j ∈ Finset.range C.size, (∑ i ∈ Finset.range C.size, K r i * C.at' i j) * K r j) =
        variance C.size C.at' (K r) := by
      intro r
      unfold variance
      simp only [Finset.sum_mul]
      exact Finset.sum_comm
    refine ⟨_, by simp only [sigmaTb, covTb, if_pos, bind, Except.bind, pure, Except.pure]; rfl, fun r => ?_⟩
    simp only [e]
    exact ⟨fun h => if_pos h, fun h => if_neg (not_le.2 h)⟩

example : sigmaTb covR17_111 112 (fun _ _ => 1) = .error .valueError :=
  (C111_sigma _ _ _).1 (by decide)

/-- C111: oxygen and water vapour parameters are not correlated: the variance is the sum of the two contributions. -/
theorem C111_split {C : Cov} (h : Shipped C) (k : ℕ → ℝ) :
    variance C.size C.at' k = variance 105 C.at' k + variance (C.size - 105) (others C) fun i => k (105 + i) := by
  obtain ⟨m, hm⟩ : ∃ m, C.size - 105 = m := ⟨_, rfl⟩
  rw [shipped_size h, hm]
  unfold variance others
  rw [Finset.sum_range_add]
  congr 1
  · refine Finset.sum_congr rfl fun i hi => ?_
    rw [Finset.sum_range_add]
    simp only [(at_cross h (Finset.mem_range.1 hi) (Nat.le_add_right 105 _)).1, mul_zero, zero_mul, Finset.sum_const_zero,
      add_zero]
  · rw [show 105 + m - 105 = m by omega]
    refine Finset.sum_congr rfl fun i _ => ?_
    rw [Finset.sum_range_add]
    have : ∑ j ∈ Finset.range 105, k (105 + i) * C.at' (105 + i) j * k j = 0 :=
      Finset.sum_eq_zero fun j hj => by
        rw [(at_cross h (Finset.mem_range.1 hj) (Nat.le_add_right 105 i)).2]
        ring
    rw [this, zero_add]

theorem scaled {n : ℕ} {s : ℝ} {T : List (List ℤ)} {A : ℕ → ℕ → ℝ}
    (hA : ∀ i < n, ∀ j < n, A i j = (entry T i j : ℝ) / s) (k : ℕ → ℝ) :
    variance n A k = (∑ i ∈ Finset.range n, ∑ j ∈ Finset.range n, k i * (entry T i j : ℝ) * k j) / s ∧
    uncorrelated n A k = (∑ i ∈ Finset.range n, (entry T i i : ℝ) * k i ^ 2) / s := by
  unfold variance uncorrelated
  constructor
  · rw [Finset.sum_div]
    refine Finset.sum_congr rfl fun i hi => ?_
    rw [Finset.sum_div]
    refine Finset.sum_congr rfl fun j hj => ?_
    rw [hA i (Finset.mem_range.1 hi) j (Finset.mem_range.1 hj)]
    ring
  · rw [Finset.sum_div]
    refine Finset.sum_congr rfl fun i hi => ?_
    rw [hA i (Finset.mem_range.1 hi) i (Finset.mem_range.1 hi)]
    ring

theorem bound_of {c d : ℤ} {δ n : ℕ} {Ls : List (ℤ × List ℤ)} {T : List (List ℤ)} {s : ℝ} (hs : 0 < s)
    (h : gramOK c d δ n Ls T = true) (hn : Ls.length = n) {A : ℕ → ℕ → ℝ}
    (hA : ∀ i < n, ∀ j < n, A i j = (entry T i j : ℝ) / s) (k : ℕ → ℝ) :
    0 ≤ c * variance n A k + (d - c) * uncorrelated n A k := by
  have := gram_bound h hn.le k
  rw [hn] at this
  obtain ⟨e1, e2⟩ := scaled hA k
  rw [e1, e2, ← mul_div_assoc, ← mul_div_assoc, ← add_div]
  exact div_nonneg this hs.le

theorem others_diag {C : Cov} (h : Shipped C) {i : ℕ} (hi : i < C.size - 105) : 0 < others C i i := by
  obtain ⟨-, h1, h2, h3⟩ := diag_ok
  have p : (0 : ℝ) < 2 ^ 158 := by positivity
  rcases h with rfl | rfl | rfl
  · exact lt_of_lt_of_eq (div_pos (by exact_mod_cast diagPos_sound h1 hi) p) (covFile_others _ _ i i).symm
  · exact lt_of_lt_of_eq (div_pos (by exact_mod_cast diagPos_sound h2 hi) p) (covFile_others _ _ i i).symm
  · exact lt_of_lt_of_eq (div_pos (by exact_mod_cast diagPos_sound h3 hi) p) (covFile_others _ _ i i).symm

/-- C111: the parameters other than the first 105: whatever the Jacobian, the variance is at least 8 per cent of what it
would be without correlations; so it is positive unless all derivatives are zero. -/
theorem C111_others {C : Cov} (h : Shipped C) (k : ℕ → ℝ) :
    0.08 * uncorrelated (C.size - 105) (others C) k ≤ variance (C.size - 105) (others C) k ∧
      ((∃ i < C.size - 105, k i ≠ 0) → 0 < variance (C.size - 105) (others C) k) := by
  have key : 0.08 * uncorrelated (C.size - 105) (others C) k ≤ variance (C.size - 105) (others C) k := by
    obtain ⟨-, -, -, l1, l2, l3⟩ := cert_lengths
    have p : (0 : ℝ) < 2 ^ 158 := by positivity
    rcases h with rfl | rfl | rfl
    · have := bound_of p water111_ok l1 (A := others covR17_111) (fun i _ j _ => covFile_others _ _ i j) k
      norm_num at this
      change 0.08 * uncorrelated 6 _ k ≤ variance 6 _ k
      linarith
    · have := bound_of p water112_ok l2 (A := others covR17_112) (fun i _ j _ => covFile_others _ _ i j) k
      norm_num at this
      change 0.08 * uncorrelated 7 _ k ≤ variance 7 _ k
      linarith
    · have := bound_of p water135_ok l3 (A := others covR19) (fun i _ j _ => covFile_others _ _ i j) k
      norm_num at this
      change 0.08 * uncorrelated 30 _ k ≤ variance 30 _ k
      linarith
  refine ⟨key, fun ⟨i, hi, hk⟩ => lt_of_lt_of_le ?_ key⟩
  have : 0 < uncorrelated (C.size - 105) (others C) k := by
    refine lt_of_lt_of_le (mul_pos (others_diag h hi) (sq_pos_of_ne_zero hk)) ?_
    exact Finset.single_le_sum (f := fun i => others C i i * k i ^ 2)
      (fun j hj => mul_nonneg (others_diag h (Finset.mem_range.1 hj)).le (sq_nonneg _)) (Finset.mem_range.2 hi)
  linarith

theorem variance_zero {n : ℕ} {A : ℕ → ℕ → ℝ} {k : ℕ → ℝ} (hk : ∀ i < n, k i = 0) : variance n A k = 0 :=
  Finset.sum_eq_zero fun i hi => Finset.sum_eq_zero fun j _ => by rw [hk i (Finset.mem_range.1 hi)]; ring

theorem others_nonneg {C : Cov} (h : Shipped C) (k : ℕ → ℝ) : 0 ≤ variance (C.size - 105) (others C) k := by
  by_cases hz : ∃ i < C.size - 105, k i ≠ 0
  · exact ((C111_others h k).2 hz).le
  · push Not at hz
    exact (variance_zero hz).ge

/-- C111: a Jacobian without derivatives with respect to the oxygen parameters gives numbers, positive ones where the
brightness temperature depends on some parameter. -/
theorem C111_water {C : Cov} (h : Shipped C) {K : ℕ → ℕ → ℝ} {r : ℕ} (hK : ∀ i < 105, K r i = 0) :
    ∃ S s, sigmaTb C C.size K = .ok S ∧ S r = some s ∧ ((∃ i, 105 ≤ i ∧ i < C.size ∧ K r i ≠ 0) → 0 < s) := by
  obtain ⟨S, hS, hr⟩ := (C111_sigma C C.size K).2 rfl
  have e := C111_split h (K r)
  rw [variance_zero hK, zero_add] at e
  have h0 : 0 ≤ variance C.size C.at' (K r) := by
    rw [e]
    exact others_nonneg h _
  refine ⟨S, _, hS, (hr r).1 h0, fun ⟨i, h1, h2, h3⟩ => Real.sqrt_pos.2 ?_⟩
  rw [e]
  exact (C111_others h _).2 ⟨i - 105, by omega, by rwa [show 105 + (i - 105) = i by omega]⟩

/-- Case: only the width of the 22 GHz line (parameter 108, entry 107). -/
example : ∃ S s, sigmaTb covR17_112 112 (fun _ i => if i = 107 then 2 else 0) = .ok S ∧ S 0 = some s ∧ 0 < s := by
  obtain ⟨S, s, h1, h2, h3⟩ := C111_water (C := covR17_112) (.inr (.inl rfl)) (K := fun _ i => if i = 107 then 2 else 0)
    (r := 0) fun i hi => if_neg (by omega)
  exact ⟨S, s, h1, h2, h3 ⟨107, by norm_num, by decide, by norm_num⟩⟩

/-- The entries of an integer row. -/
def rowOf (k : List ℤ) (i : ℕ) : ℝ := (k.getD i 0 : ℝ)

theorem oxygen_row {C : Cov} (h : Shipped C) {k : List ℤ} (hk : k.length ≤ 105) :
    variance C.size C.at' (rowOf k) = (quad covOxygen k : ℝ) / 2 ^ 50 ∧
    uncorrelated 105 C.at' (rowOf k) = (quadDiag covOxygen k : ℝ) / 2 ^ 50 := by
  obtain ⟨e1, e2⟩ := scaled (n := 105) (s := 2 ^ 50) (T := covOxygen) (A := C.at')
    (fun i hi j hj => at_oxygen h hi hj) (rowOf k)
  constructor
  · rw [C111_split h, variance_zero (k := fun i => rowOf k (105 + i)), add_zero, e1, quad_eq _ _ hk]
    · rfl
    · intro i _
      unfold rowOf
      rw [List.getD_eq_default _ _ (by omega)]
      norm_num
  · rw [e2, quadDiag_eq _ _ hk]
    rfl

/-- A row with three entries: widths number 14, 30 and 36 of the list in the documentation. -/
def threeWidths : List ℤ := List.replicate 13 0 ++ [-1] ++ List.replicate 15 0 ++ [6] ++ List.replicate 5 0 ++ [-4]

/-- C111 (negation): none of the matrices is a covariance matrix.  A Jacobian with derivatives -1, 6 and -4 with respect
to three oxygen line widths and 0 elsewhere gives a negative variance, and the standard deviation comes out as nan. -/
theorem C111_refuted {C : Cov} (h : Shipped C) :
    variance C.size C.at' (rowOf threeWidths) < 0 ∧
      ∃ S, sigmaTb C C.size (fun _ => rowOf threeWidths) = .ok S ∧ ∀ r, S r = none := by
  have hq : quad covOxygen threeWidths < 0 := by decide +kernel
  have hv : variance C.size C.at' (rowOf threeWidths) < 0 := by
    rw [(oxygen_row h (by decide)).1]
    exact div_neg_of_neg_of_pos (by exact_mod_cast hq) (by positivity)
  obtain ⟨S, hS, hr⟩ := (C111_sigma C C.size fun _ => rowOf threeWidths).2 rfl
  exact ⟨hv, S, hS, fun r => (hr r).2 hv⟩

example : rowOf threeWidths 13 = -1 ∧ rowOf threeWidths 29 = 6 ∧ rowOf threeWidths 35 = -4 ∧ rowOf threeWidths 36 = 0 := by
  refine ⟨?_, ?_, ?_, ?_⟩ <;> norm_num [rowOf, threeWidths]

/-- A row for which the defect is large. -/
def worstRow : List ℤ := [0, 0, 0, 0, 0, -1, 0, 0, 0, 0, 0, -1, -1, 37, 37, 4, 4, 9, 9, 13, 13, 18, 18, -50, -50, -21, -21,
  -7, -7, 1, 1, 5, 5, 7, 7, 8, 8, 0, -1, 1, -1, 0, 0, -2, 2, -7, 10, -11, 7, 11, -9, 5, -4, 2, -2, 0, 0, 0, 0, -1, 1, -1, 1,
  -1, 1, -1, 1, -1, 1, -1, 1]

/-- C111: how far the matrices are from being covariance matrices.  The variance is never less than minus 41 per cent of
what it would be without correlations, and it can be less than minus 40 per cent: this is not rounding. -/
theorem C111_defect {C : Cov} (h : Shipped C) :
    (∀ k, -0.41 * uncorrelated 105 C.at' k ≤ variance C.size C.at' k) ∧
      ∃ k, variance C.size C.at' k < -0.4 * uncorrelated 105 C.at' k := by
  constructor
  · intro k
    have := bound_of (s := 2 ^ 50) (by positivity) oxygen_ok cert_lengths.1 (A := C.at')
      (fun i hi j hj => at_oxygen h hi hj) k
    rw [C111_split h]
    have h2 := others_nonneg h fun i => k (105 + i)
    norm_num at this ⊢
    linarith
  · refine ⟨rowOf worstRow, ?_⟩
    obtain ⟨e1, e2⟩ := oxygen_row h (k := worstRow) (by decide)
    have hq : 5 * quad covOxygen worstRow < -2 * quadDiag covOxygen worstRow := by decide +kernel
    have hq' : 5 * (quad covOxygen worstRow : ℝ) < -2 * (quadDiag covOxygen worstRow : ℝ) := by exact_mod_cast hq
    rw [e1, e2, ← mul_div_assoc]
    apply div_lt_div_of_pos_right _ (by positivity)
    norm_num
    linarith

/-- C111: standard deviations are numbers where the brightness temperature reacts to all oxygen line widths in the same
direction and to no other oxygen parameter. -/
theorem C111_widths {C : Cov} (h : Shipped C) {K : ℕ → ℕ → ℝ} {r : ℕ}
    (hK : ∀ i < 105, (i < 3 ∨ 37 ≤ i) → K r i = 0) (hs : (∀ i < 105, 0 ≤ K r i) ∨ (∀ i < 105, K r i ≤ 0)) :
    ∃ S s, sigmaTb C C.size K = .ok S ∧ S r = some s := by
  obtain ⟨S, hS, hr⟩ := (C111_sigma C C.size K).2 rfl
  refine ⟨S, _, hS, (hr r).1 ?_⟩
  rw [C111_split h]
  refine add_nonneg (Finset.sum_nonneg fun i hi => Finset.sum_nonneg fun j hj => ?_) (others_nonneg h _)
  have hi := Finset.mem_range.1 hi
  have hj := Finset.mem_range.1 hj
  by_cases h1 : i < 3 ∨ 37 ≤ i
  · rw [hK i hi h1]; simp
  by_cases h2 : j < 3 ∨ 37 ≤ j
  · rw [hK j hj h2]; simp
  have hw : 0 ≤ C.at' i j := by
    rw [at_oxygen h hi hj]
    exact div_nonneg (by exact_mod_cast widths_nonneg (by omega) (by omega)) (by positivity)
  rw [mul_assoc, mul_comm (C.at' i j), ← mul_assoc]
  refine mul_nonneg ?_ hw
  rcases hs with hs | hs
  · exact mul_nonneg (hs i hi) (hs j hj)
  · exact mul_nonneg_of_nonpos_of_nonpos (hs i hi) (hs j hj)

example : ∃ S s, sigmaTb covR19 135 (fun _ i => if i = 3 ∨ i = 5 then 2 else 0) = .ok S ∧ S 0 = some s := by
  refine C111_widths (C := covR19) (.inr (.inr rfl)) ?_ (.inl fun i _ => by split_ifs <;> norm_num)
  intro i _ h
  exact if_neg (by omega)

/-- C111: within the mixing parameters, and within their temperature coefficients, the defect is at the level of the
single precision of the stored numbers. -/
theorem C111_mixing {C : Cov} (h : Shipped C) (k : ℕ → ℝ) :
    -3e-7 * uncorrelated 34 (fun i j => C.at' (37 + i) (37 + j)) k ≤
      variance 34 (fun i j => C.at' (37 + i) (37 + j)) k ∧
    -2e-7 * uncorrelated 34 (fun i j => C.at' (71 + i) (71 + j)) k ≤
      variance 34 (fun i j => C.at' (71 + i) (71 + j)) k := by
  obtain ⟨-, l1, l2, -⟩ := cert_lengths
  constructor
  · have := bound_of (s := 2 ^ 50) (by positivity) mixing_ok l1 (A := fun i j => C.at' (37 + i) (37 + j))
      (fun i hi j hj => by rw [entry_drop, at_oxygen h (by omega) (by omega)]) k
    norm_num at this ⊢
    linarith
  · have := bound_of (s := 2 ^ 50) (by positivity) slope_ok l2 (A := fun i j => C.at' (71 + i) (71 + j))
      (fun i hi j hj => by rw [entry_drop, at_oxygen h (by omega) (by omega)]) k
    norm_num at this ⊢
    linarith

example : Shipped covR17_111 ∧ Shipped covR17_112 ∧ Shipped covR19 := ⟨.inl rfl, .inr (.inl rfl), .inr (.inr rfl)⟩

/-- C111 (negation): the matrices are not symmetric; entries differ from their mirror images by up to 5.9e-11. -/
theorem C111_symmetry {C : Cov} (h : Shipped C) :
    (∀ i < C.size, ∀ j < C.size, |C.at' i j - C.at' j i| ≤ 5.9e-11) ∧ C.at' 42 39 ≠ C.at' 39 42 := by
  constructor
  · have sym : ∀ {T : List (List ℤ)} {δ n i j : ℕ} {s : ℝ}, 0 < s → nearSym δ n T = true → i < n → j < n →
        |(entry T i j : ℝ) / s - (entry T j i : ℝ) / s| ≤ δ / s := by
      intro T δ n i j s hs ht hi hj
      have := nearSym_sound ht hi hj
      have : |entry T i j - entry T j i| ≤ (δ : ℤ) := by rw [Int.abs_eq_natAbs]; exact_mod_cast this
      have : |(entry T i j : ℝ) - entry T j i| ≤ δ := by exact_mod_cast this
      rw [← sub_div, abs_div, abs_of_pos hs]
      exact div_le_div_of_nonneg_right this hs.le
    intro i hi j hj
    by_cases h1 : i < 105
    · by_cases h2 : j < 105
      · rw [at_oxygen h h1 h2, at_oxygen h h2 h1]
        refine (sym (by positivity) nearSym_ok h1 h2).trans ?_
        norm_num
      · rw [(at_cross h h1 (by omega)).1, (at_cross h h1 (by omega)).2]
        norm_num
    · by_cases h2 : j < 105
      · rw [(at_cross h h2 (by omega)).1, (at_cross h h2 (by omega)).2]
        norm_num
      · obtain ⟨i, rfl⟩ : ∃ a, i = 105 + a := ⟨i - 105, by omega⟩
        obtain ⟨j, rfl⟩ : ∃ a, j = 105 + a := ⟨j - 105, by omega⟩
        change |others C i j - others C j i| ≤ _
        obtain ⟨n1, n2, n3⟩ := nearSym_water
        rcases h with rfl | rfl | rfl
        · rw [covR17_111, covFile_others, covFile_others]
          have hi : 105 + i < 111 := hi
          have hj : 105 + j < 111 := hj
          refine (sym (by positivity) n1 (by omega) (by omega)).trans ?_
          norm_num
        · rw [covR17_112, covFile_others, covFile_others]
          have hi : 105 + i < 112 := hi
          have hj : 105 + j < 112 := hj
          refine (sym (by positivity) n2 (by omega) (by omega)).trans ?_
          norm_num
        · rw [covR19, covFile_others, covFile_others]
          have hi : 105 + i < 135 := hi
          have hj : 105 + j < 135 := hj
          refine (sym (by positivity) n3 (by omega) (by omega)).trans ?_
          norm_num
  · rw [at_oxygen h (by norm_num) (by norm_num), at_oxygen h (by norm_num) (by norm_num)]
    have : entry covOxygen 42 39 ≠ entry covOxygen 39 42 := by decide +kernel
    intro he
    rw [div_left_inj' (by positivity)] at he
    exact this (by exact_mod_cast he)

/-- The parameters as listed at the head of the module that loads the matrices (covariance_matrix/__init__.py:9-22), by
the names of the dictionaries; lines are numbered from 0. -/
def documentedParameters : List (String × Option ℕ) :=
  [("O2S", some 0), ("X05", none), ("WB300", none)] ++ (List.range 34).map (fun i => ("O2gamma", some i)) ++
  (List.range 34).map (fun i => ("Y300", some i)) ++ (List.range 34).map (fun i => ("O2_V", some i)) ++
  [("con_Cf_factr", none), ("con_Cs_factr", none), ("gamma_a", some 0), ("S", some 0), ("con_Xf", none), ("SR", some 0),
    ("con_Xs", none)]

/-- C111: the columns of the Jacobian in the tutorial are the parameters of the larger of the two R17 matrices, in
order; without the last one they are those of the smaller. -/
theorem C111_columns : tutorialColumns = documentedParameters ∧ tutorialColumns.length = covR17_112.size ∧
    (tutorialColumns.filter fun e => e.1 != "con_Xs") = documentedParameters.take covR17_111.size := by
  have h1 : covR17_112.size = 112 := rfl
  have h2 : covR17_111.size = 111 := rfl
  rw [h1, h2]
  decide +kernel

end Verif.Props
