import Mathlib.Data.List.Range
import Mathlib.Logic.Function.Basic
import Mathlib.Tactic.Common

/-!
# Python control flow

`for` loops over `range(...)` as folds over the mutable state, with and without early `return`.
-/

namespace Verif.Py

/-- `for i in range(lo, hi): s = f i s` -/
def forRange {σ : Type*} (lo hi : ℕ) (f : ℕ → σ → σ) (s : σ) : σ :=
  (List.range' lo (hi - lo)).foldl (fun s i => f i s) s

/-- `for i in range(n - 1, -1, -1): s = f i s`, i.e. `i = n-1, n-2, …, 0`. -/
def forDown {σ : Type*} : ℕ → (ℕ → σ → σ) → σ → σ
  | 0, _, s => s
  | n + 1, f, s => forDown n f (f n s)

/-- `for i in range(lo, hi)` whose body may `return` early (`Except.error` carries the returned value). -/
def forRangeE {ρ σ : Type*} (lo hi : ℕ) (f : ℕ → σ → Except ρ σ) (s : σ) : Except ρ σ :=
  (List.range' lo (hi - lo)).foldlM (fun s i => f i s) s

section lemmas
variable {σ ρ : Type*}

theorem forRange_of_le {lo hi : ℕ} (h : hi ≤ lo) (f : ℕ → σ → σ) (s : σ) :
    forRange lo hi f s = s := by
  simp [forRange, Nat.sub_eq_zero_of_le h]

@[simp] theorem forRange_self (lo : ℕ) (f : ℕ → σ → σ) (s : σ) : forRange lo lo f s = s :=
  forRange_of_le le_rfl f s

theorem forRange_succ {lo hi : ℕ} (h : lo ≤ hi) (f : ℕ → σ → σ) (s : σ) :
    forRange lo (hi + 1) f s = f hi (forRange lo hi f s) := by
  obtain ⟨k, rfl⟩ := Nat.exists_eq_add_of_le h
  have h1 : lo + k + 1 - lo = k + 1 := by omega
  have h2 : lo + k - lo = k := by omega
  unfold forRange
  rw [h1, h2, List.range'_concat]
  simp

theorem forRange_step {lo hi : ℕ} (h : lo < hi) (f : ℕ → σ → σ) (s : σ) :
    forRange lo hi f s = forRange (lo + 1) hi f (f lo s) := by
  obtain ⟨k, rfl⟩ := Nat.exists_eq_add_of_lt h
  have h1 : lo + k + 1 - lo = k + 1 := by omega
  have h2 : lo + k + 1 - (lo + 1) = k := by omega
  unfold forRange
  rw [h1, h2, List.range'_succ]
  simp

/-- Loop invariant rule. -/
theorem forRange_inv {lo hi : ℕ} {f : ℕ → σ → σ} {s : σ} (I : ℕ → σ → Prop) (hle : lo ≤ hi)
    (h0 : I lo s) (hs : ∀ i s, lo ≤ i → i < hi → I i s → I (i + 1) (f i s)) :
    I hi (forRange lo hi f s) := by
  induction hi, hle using Nat.le_induction with
  | base => simpa using h0
  | succ n hn ih =>
    rw [forRange_succ hn]
    exact hs n _ hn (Nat.lt_succ_self n) (ih fun i s h1 h2 => hs i s h1 (Nat.lt_succ_of_lt h2))

/-- Invariant rule for downward loops. -/
theorem forDown_inv {n : ℕ} {f : ℕ → σ → σ} (I : ℕ → σ → Prop) :
    ∀ {s : σ}, I n s → (∀ i s, i < n → I (i + 1) s → I i (f i s)) → I 0 (forDown n f s) := by
  induction n with
  | zero => intro s h0 _; simpa [forDown] using h0
  | succ n ih =>
    intro s h0 hs
    exact ih (hs n s (Nat.lt_succ_self n) h0) fun i s h1 h2 => hs i s (Nat.lt_succ_of_lt h1) h2

theorem forRangeE_of_le {lo hi : ℕ} (h : hi ≤ lo) (f : ℕ → σ → Except ρ σ) (s : σ) :
    forRangeE lo hi f s = .ok s := by
  simp [forRangeE, Nat.sub_eq_zero_of_le h]; rfl

theorem forRangeE_succ {lo hi : ℕ} (h : lo ≤ hi) (f : ℕ → σ → Except ρ σ) (s : σ) :
    forRangeE lo (hi + 1) f s = (forRangeE lo hi f s).bind (f hi) := by
  obtain ⟨k, rfl⟩ := Nat.exists_eq_add_of_le h
  have h1 : lo + k + 1 - lo = k + 1 := by omega
  have h2 : lo + k - lo = k := by omega
  unfold forRangeE
  rw [h1, h2, List.range'_concat, List.foldlM_append]
  simp only [List.foldlM_cons, List.foldlM_nil, Nat.one_mul]
  cases List.foldlM (fun s i => f i s) s (List.range' lo k) with
  | error e => rfl
  | ok a =>
    show (f (lo + k) a >>= pure) = f (lo + k) a
    simp

theorem forRangeE_step {lo hi : ℕ} (h : lo < hi) (f : ℕ → σ → Except ρ σ) (s : σ) :
    forRangeE lo hi f s = (f lo s).bind (forRangeE (lo + 1) hi f) := by
  obtain ⟨k, rfl⟩ := Nat.exists_eq_add_of_lt h
  have h1 : lo + k + 1 - lo = k + 1 := by omega
  have h2 : lo + k + 1 - (lo + 1) = k := by omega
  unfold forRangeE
  rw [h1, h2, List.range'_succ]
  rfl

/-- Invariant rule for loops with early return: `I` holds at every loop head,
`E` holds of every early-returned value. -/
theorem forRangeE_inv {lo hi : ℕ} {f : ℕ → σ → Except ρ σ} {s : σ}
    (I : ℕ → σ → Prop) (E : ρ → Prop) (hle : lo ≤ hi) (h0 : I lo s)
    (hs : ∀ i s, lo ≤ i → i < hi → I i s →
      (∃ s', f i s = .ok s' ∧ I (i + 1) s') ∨ (∃ e, f i s = .error e ∧ E e)) :
    (∃ s', forRangeE lo hi f s = .ok s' ∧ I hi s') ∨
      (∃ e, forRangeE lo hi f s = .error e ∧ E e) := by
  induction hi, hle using Nat.le_induction with
  | base => exact Or.inl ⟨s, forRangeE_of_le le_rfl f s, h0⟩
  | succ n hn ih =>
    rw [forRangeE_succ hn]
    rcases ih fun i s h1 h2 => hs i s h1 (Nat.lt_succ_of_lt h2) with ⟨s', h1, h2⟩ | ⟨e, h1, h2⟩
    · rw [h1]
      exact hs n s' hn (Nat.lt_succ_self n) h2
    · exact Or.inr ⟨e, by rw [h1]; rfl, h2⟩

end lemmas

end Verif.Py
