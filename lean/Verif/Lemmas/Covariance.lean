import Verif.Lemmas.CovarianceCert
import Verif.Lemmas.GramCheck
import Verif.Model.Covariance
import Verif.Spec.Variance

/-!
# Checks of the covariance tables
-/

namespace Verif.Lemmas

open Verif.Model Verif.Spec

/-! ## The checks themselves -/

theorem oxygen_ok : gramOK 100 141 869188450 105 certOxygen covOxygen = true := by decide +kernel

theorem mixing_ok : gramOK 100000000 100000030 20656412656 34 certMixing ((covOxygen.drop 37).map (List.drop 37)) = true := by
  decide +kernel

theorem slope_ok : gramOK 100000000 100000020 292239901338 34 certSlope ((covOxygen.drop 71).map (List.drop 71)) = true := by
  decide +kernel

theorem water111_ok : gramOK 100 92 2679324732100770766372136514748416 6 certWater111 covWater111 = true := by
  decide +kernel

theorem water112_ok : gramOK 100 92 4434980160071177866585532320972800 7 certWater112 covWater112 = true := by
  decide +kernel

theorem water135_ok : gramOK 100 92 506304683883126826739020114952192 30 certWater135 covWater135 = true := by
  decide +kernel

theorem cert_lengths : certOxygen.length = 105 ∧ certMixing.length = 34 ∧ certSlope.length = 34 ∧
    certWater111.length = 6 ∧ certWater112.length = 7 ∧ certWater135.length = 30 := by decide +kernel

/-- The covariances between line widths are not negative. -/
def widthsNonneg : Bool := ((covOxygen.drop 3).take 34).all fun r => ((r.drop 3).take 34).all fun a => decide (0 ≤ a)

theorem widths_ok : widthsNonneg = true := by decide +kernel

/-- The variances are positive. -/
def diagPos (T : List (List ℤ)) (n : ℕ) : Bool := (List.range n).all fun i => decide (0 < entry T i i)

theorem diag_ok : diagPos covOxygen 105 = true ∧ diagPos covWater111 6 = true ∧ diagPos covWater112 7 = true ∧
    diagPos covWater135 30 = true := by decide +kernel

/-- Corresponding entries of two lists, both of length at least `n`, differ by at most `δ`. -/
def closeList (δ : ℕ) : ℕ → List ℤ → List ℤ → Bool
  | 0, _, _ => true
  | n + 1, a :: r, b :: q => Nat.ble (Int.natAbs (a - b)) δ && closeList δ n r q
  | _, _, _ => false

/-- A matrix and its transpose differ by at most `δ`. -/
def nearSym (δ : ℕ) : ℕ → List (List ℤ) → Bool
  | 0, _ => true
  | n + 1, (_ :: r) :: rows => closeList δ n r (heads rows) && nearSym δ n (rows.map List.tail)
  | _, _ => false

theorem nearSym_ok : nearSym 65536 105 covOxygen = true := by decide +kernel

theorem nearSym_water : nearSym (2 ^ 110) 6 covWater111 = true ∧ nearSym 0 7 covWater112 = true ∧
    nearSym (2 ^ 110) 30 covWater135 = true := by decide +kernel

/-! ## What they say -/

theorem diagPos_sound {T : List (List ℤ)} {n : ℕ} (h : diagPos T n = true) {i : ℕ} (hi : i < n) : 0 < entry T i i := by
  unfold diagPos at h
  rw [List.all_eq_true] at h
  simpa using h i (List.mem_range.2 hi)

theorem closeList_sound {δ n : ℕ} {r q : List ℤ} (h : closeList δ n r q = true) {j : ℕ} (hj : j < n) :
    Int.natAbs (r.getD j 0 - q.getD j 0) ≤ δ := by
  induction n generalizing r q j with
  | zero => omega
  | succ n ih =>
    cases r with
    | nil => cases q <;> simp [closeList] at h
    | cons a r =>
      cases q with
      | nil => simp [closeList] at h
      | cons b q =>
        simp only [closeList, Bool.and_eq_true] at h
        cases j with
        | zero => simpa using Nat.le_of_ble_eq_true h.1
        | succ j => simpa only [List.getD_cons_succ] using ih h.2 (by omega)

theorem nearSym_sound {δ n : ℕ} {T : List (List ℤ)} (h : nearSym δ n T = true) {i j : ℕ} (hi : i < n) (hj : j < n) :
    Int.natAbs (entry T i j - entry T j i) ≤ δ := by
  induction n generalizing T i j with
  | zero => omega
  | succ n ih =>
    cases T with
    | nil => simp [nearSym] at h
    | cons r0 rows =>
      cases r0 with
      | nil => simp [nearSym] at h
      | cons a r =>
        simp only [nearSym, Bool.and_eq_true] at h
        cases i with
        | zero =>
          cases j with
          | zero => simp
          | succ j =>
            have := closeList_sound h.1 (j := j) (by omega)
            rw [entry_head (a :: r)] at this
            simpa [entry] using this
        | succ i =>
          cases j with
          | zero =>
            have := closeList_sound h.1 (j := i) (by omega)
            rw [entry_head (a :: r), ← Int.natAbs_neg, neg_sub] at this
            simpa [entry] using this
          | succ j =>
            have := ih h.2 (i := i) (j := j) (by omega) (by omega)
            rwa [entry_tail (a :: r), entry_tail (a :: r)] at this

theorem entry_drop (T : List (List ℤ)) (m i j : ℕ) :
    entry ((T.drop m).map (List.drop m)) i j = entry T (m + i) (m + j) := by
  unfold entry
  simp only [List.getD_eq_getElem?_getD, List.getElem?_map, List.getElem?_drop]
  cases T[m + i]? with
  | none => simp
  | some q => simp [List.getElem?_drop]

theorem widths_nonneg {i j : ℕ} (hi : 3 ≤ i ∧ i < 37) (hj : 3 ≤ j ∧ j < 37) : 0 ≤ entry covOxygen i j := by
  have h := widths_ok
  unfold widthsNonneg at h
  rw [List.all_eq_true] at h
  unfold entry
  simp only [List.getD_eq_getElem?_getD]
  cases h1 : covOxygen[i]? with
  | none => simp
  | some r =>
    simp only [Option.getD_some]
    cases h2 : r[j]? with
    | none => simp
    | some a =>
      have hr : r ∈ (covOxygen.drop 3).take 34 := by
        refine List.mem_of_getElem? (i := i - 3) ?_
        rw [List.getElem?_take_of_lt (by omega), List.getElem?_drop, show 3 + (i - 3) = i by omega, h1]
      have h' := h r hr
      rw [List.all_eq_true] at h'
      have ha : a ∈ (r.drop 3).take 34 := by
        refine List.mem_of_getElem? (i := j - 3) ?_
        rw [List.getElem?_take_of_lt (by omega), List.getElem?_drop, show 3 + (j - 3) = j by omega, h2]
      simpa using h' a ha

/-- Value of the form at an integer point. -/
def quad (T : List (List ℤ)) (k : List ℤ) : ℤ := idot k (T.map (idot k))

/-- Its diagonal part. -/
def quadDiag (T : List (List ℤ)) (k : List ℤ) : ℤ :=
  idot (k.map fun a => a * a) ((List.range k.length).map fun i => entry T i i)

theorem idot_nil (k : List ℤ) : idot k [] = 0 := by cases k <;> rfl

theorem quad_eq (T : List (List ℤ)) (k : List ℤ) {n : ℕ} (h : k.length ≤ n) :
    (quad T k : ℝ) = ∑ i ∈ Finset.range n, ∑ j ∈ Finset.range n,
      (k.getD i 0 : ℝ) * (entry T i j : ℝ) * (k.getD j 0 : ℝ) := by
  unfold quad
  rw [idot_sum _ _ h]
  push_cast
  refine Finset.sum_congr rfl fun i _ => ?_
  have : (T.map (idot k)).getD i 0 = idot k (T.getD i []) := by
    simp only [List.getD_eq_getElem?_getD, List.getElem?_map]
    cases T[i]? <;> simp [idot_nil]
  rw [this, idot_sum _ _ h]
  push_cast
  rw [Finset.mul_sum]
  refine Finset.sum_congr rfl fun j _ => ?_
  unfold entry
  ring

theorem quadDiag_eq (T : List (List ℤ)) (k : List ℤ) {n : ℕ} (h : k.length ≤ n) :
    (quadDiag T k : ℝ) = ∑ i ∈ Finset.range n, (entry T i i : ℝ) * (k.getD i 0 : ℝ) ^ 2 := by
  unfold quadDiag
  rw [idot_sum _ _ (K := n) (by simpa using h)]
  push_cast
  refine Finset.sum_congr rfl fun i _ => ?_
  simp only [List.getD_eq_getElem?_getD, List.getElem?_map]
  by_cases hi : i < k.length
  · simp [List.getElem?_range hi, List.getElem?_eq_getElem hi]
    ring
  · rw [List.getElem?_eq_none (by omega)]
    simp

end Verif.Lemmas
