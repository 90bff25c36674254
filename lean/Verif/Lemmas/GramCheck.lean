import Mathlib.Algebra.Order.BigOperators.Group.Finset
import Mathlib.Algebra.BigOperators.Ring.Finset
import Mathlib.Data.Real.Basic
import Mathlib.Data.List.GetD
import Mathlib.Tactic.Linarith
import Mathlib.Tactic.Positivity
import Mathlib.Tactic.Ring
import Mathlib.Tactic.FieldSimp

/-!
# Checking lower bounds of quadratic forms with integer coefficients

A form is bounded below by writing it, up to a remainder that the diagonal outweighs, as a sum of squares of linear
forms with integer coefficients.
-/

namespace Verif.Lemmas

/-- Sum of the products of corresponding entries, as far as both lists go. -/
def idot : List ℤ → List ℤ → ℤ
  | a :: u, b :: v => a * b + idot u v
  | _, _ => 0

/-- Entry `(i, j)` of a matrix given by rows, zero outside. -/
def entry (T : List (List ℤ)) (i j : ℕ) : ℤ := (T.getD i []).getD j 0

/-- First entries of the rows. -/
def heads (T : List (List ℤ)) : List ℤ := T.map fun r => r.headD 0

/-- The remainder beside the diagonal is at most `δ`: one row and one column of the matrix. -/
def gramRow (c : ℤ) (δ : ℕ) (s : ℤ) (l : List ℤ) : List (ℤ × List ℤ) → List ℤ → List ℤ → Bool
  | [], _, _ => true
  | e :: Ls, a :: r, b :: q =>
    Nat.ble (Int.natAbs (c * (a + b) * (s * e.1) - 2 * idot l e.2)) δ && gramRow c δ s l Ls r q
  | _, _, _ => false

/-- The certificate: for each variable a scale and the coefficients of that variable in the linear forms. -/
def gramOK (c d : ℤ) (δ n : ℕ) : List (ℤ × List ℤ) → List (List ℤ) → Bool
  | [], _ => true
  | e :: Ls, (a :: r) :: rows =>
    decide (0 < e.1) && decide ((n : ℤ) * δ ≤ 2 * (d * a * (e.1 * e.1) - idot e.2 e.2)) &&
      gramRow c δ e.1 e.2 Ls r (heads rows) && gramOK c d δ n Ls (rows.map List.tail)
  | _, _ => false

theorem idot_sum (u v : List ℤ) {K : ℕ} (h : u.length ≤ K) :
    idot u v = ∑ k ∈ Finset.range K, u.getD k 0 * v.getD k 0 := by
  induction u generalizing v K with
  | nil => simp [idot]
  | cons a u ih =>
    obtain ⟨K, rfl⟩ : ∃ K', K = K' + 1 := ⟨K - 1, by simp at h; omega⟩
    rw [Finset.sum_range_succ']
    cases v with
    | nil => simp [idot]
    | cons b v =>
      simp only [idot, List.getD_cons_zero, List.getD_cons_succ]
      rw [ih v (K := K) (by simpa using h)]
      ring

theorem entry_tail (r : List ℤ) (rows : List (List ℤ)) (i j : ℕ) :
    entry (rows.map List.tail) i j = entry (r :: rows) (i + 1) (j + 1) := by
  unfold entry
  rw [List.getD_cons_succ]
  simp only [List.getD_eq_getElem?_getD, List.getElem?_map]
  cases rows[i]? with
  | none => simp
  | some q => cases q <;> simp

theorem entry_head (r : List ℤ) (rows : List (List ℤ)) (i : ℕ) :
    (heads rows).getD i 0 = entry (r :: rows) (i + 1) 0 := by
  unfold entry heads
  rw [List.getD_cons_succ]
  simp only [List.getD_eq_getElem?_getD, List.getElem?_map]
  cases rows[i]? with
  | none => simp
  | some q => cases q <;> simp

theorem gramRow_sound {c : ℤ} {δ : ℕ} {s : ℤ} {l : List ℤ} {Ls : List (ℤ × List ℤ)} {r q : List ℤ}
    (h : gramRow c δ s l Ls r q = true) {j : ℕ} (hj : j < Ls.length) :
    Int.natAbs (c * (r.getD j 0 + q.getD j 0) * (s * (Ls.getD j (1, [])).1) - 2 * idot l (Ls.getD j (1, [])).2) ≤ δ := by
  induction Ls generalizing r q j with
  | nil => simp at hj
  | cons e Ls ih =>
    cases r with
    | nil => cases q <;> simp [gramRow] at h
    | cons a r =>
      cases q with
      | nil => simp [gramRow] at h
      | cons b q =>
        simp only [gramRow, Bool.and_eq_true] at h
        cases j with
        | zero => simpa using Nat.le_of_ble_eq_true h.1
        | succ j =>
          simp only [List.getD_cons_succ]
          exact ih h.2 (by simpa using hj)

/-- What a passed check says of each entry. -/
theorem gramOK_sound {c d : ℤ} {δ n : ℕ} {Ls : List (ℤ × List ℤ)} {T : List (List ℤ)}
    (h : gramOK c d δ n Ls T = true) :
    (∀ i < Ls.length, 0 < (Ls.getD i (1, [])).1 ∧ (n : ℤ) * δ ≤
      2 * (d * entry T i i * ((Ls.getD i (1, [])).1 * (Ls.getD i (1, [])).1)
        - idot (Ls.getD i (1, [])).2 (Ls.getD i (1, [])).2)) ∧
    (∀ i j, i < j → j < Ls.length →
      Int.natAbs (c * (entry T i j + entry T j i) * ((Ls.getD i (1, [])).1 * (Ls.getD j (1, [])).1)
        - 2 * idot (Ls.getD i (1, [])).2 (Ls.getD j (1, [])).2) ≤ δ) := by
  induction Ls generalizing T with
  | nil => simp
  | cons e Ls ih =>
    cases T with
    | nil => simp [gramOK] at h
    | cons r0 rows =>
      cases r0 with
      | nil => simp [gramOK] at h
      | cons a r =>
        simp only [gramOK, Bool.and_eq_true, decide_eq_true_eq] at h
        obtain ⟨⟨⟨hs, hd⟩, hr⟩, ht⟩ := h
        obtain ⟨i1, i2⟩ := ih ht
        constructor
        · intro i hi
          cases i with
          | zero => exact ⟨by simpa using hs, by simpa [entry] using hd⟩
          | succ i =>
            have := i1 i (by simpa using hi)
            rw [entry_tail (a :: r)] at this
            simpa only [List.getD_cons_succ] using this
        · intro i j hij hj
          cases j with
          | zero => omega
          | succ j =>
            cases i with
            | zero =>
              have := gramRow_sound hr (j := j) (by simpa using hj)
              rw [entry_head (a :: r)] at this
              simpa only [List.getD_cons_succ, List.getD_cons_zero, entry] using this
            | succ i =>
              have := i2 i j (by omega) (by simpa using hj)
              rw [entry_tail (a :: r), entry_tail (a :: r)] at this
              simpa only [List.getD_cons_succ] using this

/-- A form whose diagonal outweighs the rest is not negative. -/
theorem dominant_nonneg {N n : ℕ} (hN : N ≤ n) {G : ℕ → ℕ → ℝ} {δ : ℝ} (hδ : 0 ≤ δ)
    (hd : ∀ i < N, n * δ ≤ 2 * G i i) (ho : ∀ i j, i < j → j < N → |G i j + G j i| ≤ δ) (y : ℕ → ℝ) :
    0 ≤ ∑ i ∈ Finset.range N, ∑ j ∈ Finset.range N, y i * G i j * y j := by
  have ho' : ∀ i < N, ∀ j < N, i ≠ j → |G i j + G j i| ≤ δ := by
    intro i hi j hj hij
    rcases lt_or_gt_of_ne hij with h | h
    · exact ho i j h hj
    · rw [add_comm]; exact ho j i h hi
  have key : ∀ i < N, ∀ j < N, -(δ / 2) * (y i ^ 2 + y j ^ 2) + (if i = j then (n + 1) * δ * y i ^ 2 else 0) ≤
      y i * G i j * y j + y j * G j i * y i := by
    intro i hi j hj
    split_ifs with h
    · subst h
      have := hd i hi
      nlinarith [mul_le_mul_of_nonneg_left this (sq_nonneg (y i))]
    · obtain ⟨h1, h2⟩ := abs_le.1 (ho' i hi j hj h)
      have e : y i * G i j * y j + y j * G j i * y i = (G i j + G j i) * (y i * y j) := by ring
      rw [e]
      nlinarith [sq_nonneg (y i + y j), sq_nonneg (y i - y j)]
  have hs : (∑ i ∈ Finset.range N, ∑ j ∈ Finset.range N, y j * G j i * y i) =
      ∑ i ∈ Finset.range N, ∑ j ∈ Finset.range N, y i * G i j * y j := Finset.sum_comm
  have hsum := Finset.sum_le_sum fun i hi => Finset.sum_le_sum fun j hj =>
    key i (Finset.mem_range.1 hi) j (Finset.mem_range.1 hj)
  simp only [Finset.sum_add_distrib, ← Finset.mul_sum] at hsum
  rw [hs] at hsum
  have e1 : (∑ i ∈ Finset.range N, ∑ j ∈ Finset.range N, if i = j then (n + 1) * δ * y i ^ 2 else 0) =
      (n + 1) * δ * ∑ i ∈ Finset.range N, y i ^ 2 := by
    rw [Finset.mul_sum]
    refine Finset.sum_congr rfl fun i hi => ?_
    rw [Finset.sum_ite_eq (Finset.range N) i, if_pos hi]
  rw [e1] at hsum
  simp only [Finset.sum_const, Finset.card_range, nsmul_eq_mul, ← Finset.mul_sum] at hsum
  have hq : 0 ≤ ∑ i ∈ Finset.range N, y i ^ 2 := Finset.sum_nonneg fun i _ => sq_nonneg _
  have hN' : (N : ℝ) ≤ n := by exact_mod_cast hN
  nlinarith [mul_nonneg hδ hq, mul_nonneg (mul_nonneg hδ hq) (sub_nonneg.2 hN')]

/-- A Gram matrix is not negative. -/
theorem gram_nonneg (N : ℕ) (L : ℕ → List ℤ) (y : ℕ → ℝ) :
    0 ≤ ∑ i ∈ Finset.range N, ∑ j ∈ Finset.range N, y i * (idot (L i) (L j) : ℝ) * y j := by
  set K := ∑ i ∈ Finset.range N, (L i).length with hK
  have hlen : ∀ i ∈ Finset.range N, (L i).length ≤ K := fun i hi =>
    Finset.single_le_sum (f := fun i => (L i).length) (fun _ _ => Nat.zero_le _) hi
  have : (∑ i ∈ Finset.range N, ∑ j ∈ Finset.range N, y i * (idot (L i) (L j) : ℝ) * y j) =
      ∑ k ∈ Finset.range K, (∑ i ∈ Finset.range N, y i * ((L i).getD k 0 : ℝ)) ^ 2 := by
    simp only [sq, Finset.sum_mul_sum]
    rw [Finset.sum_comm' (s := Finset.range K) (t' := Finset.range N) (s' := fun _ => Finset.range K) (by simp [and_comm])]
    refine Finset.sum_congr rfl fun i hi => ?_
    rw [Finset.sum_comm]
    refine Finset.sum_congr rfl fun j _ => ?_
    rw [idot_sum _ _ (hlen i hi)]
    push_cast
    rw [Finset.mul_sum, Finset.sum_mul]
    exact Finset.sum_congr rfl fun k _ => by ring
  rw [this]
  exact Finset.sum_nonneg fun k _ => sq_nonneg _

/-- The bound that a passed check gives. -/
theorem gram_bound {c d : ℤ} {δ n : ℕ} {Ls : List (ℤ × List ℤ)} {T : List (List ℤ)}
    (h : gramOK c d δ n Ls T = true) (hn : Ls.length ≤ n) (x : ℕ → ℝ) :
    0 ≤ c * ∑ i ∈ Finset.range Ls.length, ∑ j ∈ Finset.range Ls.length, x i * (entry T i j : ℝ) * x j
      + (d - c) * ∑ i ∈ Finset.range Ls.length, (entry T i i : ℝ) * x i ^ 2 := by
  obtain ⟨h1, h2⟩ := gramOK_sound h
  set N := Ls.length
  set s : ℕ → ℤ := fun i => (Ls.getD i (1, [])).1 with hs
  set L : ℕ → List ℤ := fun i => (Ls.getD i (1, [])).2 with hL
  set y : ℕ → ℝ := fun i => x i / s i with hy
  set G : ℕ → ℕ → ℝ := fun i j => (if i = j then (d : ℝ) else c) * (entry T i j : ℝ) * (s i * s j) - idot (L i) (L j) with hG
  have hidot : ∀ u v : List ℤ, idot u v = idot v u := by
    intro u v
    rw [idot_sum u v (K := u.length + v.length) (by omega), idot_sum v u (K := u.length + v.length) (by omega)]
    exact Finset.sum_congr rfl fun k _ => mul_comm _ _
  have d1 : ∀ i < N, (n : ℝ) * (δ : ℝ) ≤ 2 * G i i := by
    intro i hi
    have := (h1 i hi).2
    have : ((n : ℤ) * (δ : ℤ) : ℝ) ≤ (2 * (d * entry T i i * (s i * s i) - idot (L i) (L i)) : ℤ) := by exact_mod_cast this
    push_cast at this
    simpa [hG] using this
  have d2 : ∀ i j, i < j → j < N → |G i j + G j i| ≤ (δ : ℝ) := by
    intro i j hij hj
    have := h2 i j hij hj
    have : |c * (entry T i j + entry T j i) * (s i * s j) - 2 * idot (L i) (L j)| ≤ (δ : ℤ) := by
      rw [Int.abs_eq_natAbs]; exact_mod_cast this
    have : (|c * (entry T i j + entry T j i) * (s i * s j) - 2 * idot (L i) (L j)| : ℝ) ≤ δ := by exact_mod_cast this
    have e : G i j + G j i = c * (entry T i j + entry T j i) * (s i * s j) - 2 * idot (L i) (L j) := by
      simp only [hG, if_neg (Nat.ne_of_lt hij), if_neg (Nat.ne_of_gt hij), hidot (L j) (L i)]
      ring
    rw [e]
    exact this
  have A := dominant_nonneg hn (Nat.cast_nonneg δ) d1 d2 y
  have B := gram_nonneg N L y
  have C : (∑ i ∈ Finset.range N, ∑ j ∈ Finset.range N, y i * G i j * y j)
      + (∑ i ∈ Finset.range N, ∑ j ∈ Finset.range N, y i * (idot (L i) (L j) : ℝ) * y j) =
      c * ∑ i ∈ Finset.range N, ∑ j ∈ Finset.range N, x i * (entry T i j : ℝ) * x j
      + (d - c) * ∑ i ∈ Finset.range N, (entry T i i : ℝ) * x i ^ 2 := by
    rw [← Finset.sum_add_distrib, Finset.mul_sum, Finset.mul_sum, ← Finset.sum_add_distrib]
    refine Finset.sum_congr rfl fun i hi => ?_
    have hi' := Finset.mem_range.1 hi
    have si : (s i : ℝ) ≠ 0 := by exact_mod_cast (h1 i hi').1.ne'
    rw [← Finset.sum_add_distrib, Finset.mul_sum]
    have : ∀ j ∈ Finset.range N, y i * G i j * y j + y i * (idot (L i) (L j) : ℝ) * y j =
        c * (x i * (entry T i j : ℝ) * x j) + if i = j then (d - c) * ((entry T i j : ℝ) * x i ^ 2) else 0 := by
      intro j hj
      have sj : (s j : ℝ) ≠ 0 := by exact_mod_cast (h1 j (Finset.mem_range.1 hj)).1.ne'
      have e : y i * G i j * y j + y i * (idot (L i) (L j) : ℝ) * y j =
          (if i = j then (d : ℝ) else c) * (entry T i j : ℝ) * ((y i * s i) * (y j * s j)) := by
        simp only [hG]
        ring
      have ei : y i * s i = x i := by simp only [hy]; field_simp
      have ej : y j * s j = x j := by simp only [hy]; field_simp
      rw [e, ei, ej]
      split_ifs with hij
      · subst hij; ring
      · ring
    rw [Finset.sum_congr rfl this, Finset.sum_add_distrib, Finset.sum_ite_eq (Finset.range N) i, if_pos hi]
  rw [← C]
  exact add_nonneg A B

end Verif.Lemmas
