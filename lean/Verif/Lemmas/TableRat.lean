import Verif.Model.LineLists
import Mathlib.Data.Rat.Cast.CharZero
import Mathlib.Tactic.Ring
import Mathlib.Tactic.NormNum

/-!
# Rational copies of the line tables, for checks on every entry
-/

namespace Verif.Lemmas

open Verif.Model Verif.Py

/-- Entry `k` of a column as a rational number. -/
def colRat (c : Col) (k : ℕ) : ℚ := (c.digits.getD k 0 : ℚ) / 10 ^ c.scale

theorem colRat_val (c : Col) (k : ℕ) : c.val k = (colRat c k : ℝ) := by
  unfold Col.val colRat
  push_cast
  rfl

/-- `Src.val` with rational numbers. -/
def srcRat (T : RawTable) : Src → Option (ℕ → ℚ)
  | .col c => T.cols[c]?.map colRat
  | .milli c => T.cols[c]?.map fun v k => colRat v k / 1000
  | .ctr c => if c < T.ctr.digits.length then some fun _ => colRat T.ctr c else none
  | .reft => if 0 < T.reftline.digits.length then some fun _ => colRat T.reftline 0 else none
  | .extra c => if c < T.extra.digits.length then some fun _ => colRat T.extra c else none
  | .rows => some fun _ => (T.rows : ℚ)

theorem srcRat_val {T : RawTable} {s : Src} {r : ℕ → ℚ} (h : srcRat T s = some r) :
    s.val T = some fun k => (r k : ℝ) := by
  cases s with
  | col c =>
    obtain ⟨v, hv, rfl⟩ := Option.map_eq_some_iff.1 h
    simp only [Src.val, hv, Option.map_some, Option.some.injEq]
    exact funext fun k => colRat_val v k
  | milli c =>
    obtain ⟨v, hv, rfl⟩ := Option.map_eq_some_iff.1 h
    simp only [Src.val, hv, Option.map_some, Option.some.injEq]
    funext k
    rw [colRat_val, show (1000.0 : ℝ) = 1000 by norm_num]
    push_cast
    rfl
  | ctr c =>
    simp only [srcRat] at h
    split_ifs at h with hc
    cases h
    simp only [Src.val, if_pos hc, colRat_val]
  | reft =>
    simp only [srcRat] at h
    split_ifs at h with hc
    cases h
    simp only [Src.val, if_pos hc, colRat_val]
  | extra c =>
    simp only [srcRat] at h
    split_ifs at h with hc
    cases h
    simp only [Src.val, if_pos hc, colRat_val]
  | rows =>
    cases h
    simp [Src.val]

/-- The rational values of an attribute after loading. -/
def ratAttr (assign : List (String × Src)) (T : RawTable) (a : String) : Option (ℕ → ℚ) :=
  (lastAssign assign a).bind (srcRat T)

theorem ratAttr_val {assign : List (String × Src)} {T : RawTable} {a : String} {r : ℕ → ℚ}
    (h : ratAttr assign T a = some r) : (lastAssign assign a).bind (Src.val T) = some fun k => (r k : ℝ) := by
  unfold ratAttr at h
  obtain ⟨s, hs, h⟩ := Option.bind_eq_some_iff.1 h
  rw [hs, Option.bind_some]
  exact srcRat_val h

/-- A test of all lines on one attribute. -/
def allOf (assign : List (String × Src)) (T : RawTable) (a : String) (p : ℚ → Bool) : Bool :=
  match ratAttr assign T a with
  | none => false
  | some r => (List.range T.rows).all fun k => p (r k)

theorem allOf_some {assign : List (String × Src)} {T : RawTable} {a : String} {p : ℚ → Bool}
    (h : allOf assign T a p = true) : ∃ r, ratAttr assign T a = some r ∧ ∀ k < T.rows, p (r k) = true := by
  unfold allOf at h
  cases hr : ratAttr assign T a with
  | none => simp [hr] at h
  | some r =>
    rw [hr] at h
    exact ⟨r, rfl, fun k hk => List.all_eq_true.1 h k (List.mem_range.2 hk)⟩

/-- A test of all lines on two attributes. -/
def allOf2 (assign : List (String × Src)) (T : RawTable) (a b : String) (p : ℚ → ℚ → Bool) : Bool :=
  match ratAttr assign T a, ratAttr assign T b with
  | some r, some s => (List.range T.rows).all fun k => p (r k) (s k)
  | _, _ => false

theorem allOf2_some {assign : List (String × Src)} {T : RawTable} {a b : String} {p : ℚ → ℚ → Bool}
    (h : allOf2 assign T a b p = true) : ∃ r s, ratAttr assign T a = some r ∧ ratAttr assign T b = some s ∧
      ∀ k < T.rows, p (r k) (s k) = true := by
  unfold allOf2 at h
  cases hr : ratAttr assign T a with
  | none => simp [hr] at h
  | some r =>
    cases hs : ratAttr assign T b with
    | none => simp [hr, hs] at h
    | some s =>
      rw [hr, hs] at h
      exact ⟨r, s, rfl, rfl, fun k hk => List.all_eq_true.1 h k (List.mem_range.2 hk)⟩

/-- Are the entries of an attribute strictly rising? -/
def rising (assign : List (String × Src)) (T : RawTable) (a : String) : Bool :=
  match ratAttr assign T a with
  | none => false
  | some r => (List.range T.rows).all fun k => decide (k + 1 = T.rows) || decide (r k < r (k + 1))

theorem rising_some {assign : List (String × Src)} {T : RawTable} {a : String} (h : rising assign T a = true) :
    ∃ r, ratAttr assign T a = some r ∧ ∀ i j, i < j → j < T.rows → r i < r j := by
  unfold rising at h
  cases hr : ratAttr assign T a with
  | none => simp [hr] at h
  | some r =>
    rw [hr] at h
    refine ⟨r, rfl, fun i j hij hj => ?_⟩
    have step : ∀ k, k + 1 < T.rows → r k < r (k + 1) := fun k hk => by
      have := List.all_eq_true.1 h k (List.mem_range.2 (by omega))
      simp only [Bool.or_eq_true, decide_eq_true_eq] at this
      rcases this with h | h
      · omega
      · exact h
    induction j, hij using Nat.le_induction with
    | base => exact step i hj
    | succ j hij ih => exact (ih (by omega)).trans (step j hj)

end Verif.Lemmas
