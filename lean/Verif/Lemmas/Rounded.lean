import Verif.Model.Rounded
import Verif.Lemmas.PlanckOut

/-! # The radiance code over an arbitrary arithmetic: loops in closed form, and the exact case -/

namespace Verif.Model.Arith

open Verif.Py Verif.Spec Real

/-- Running opacity: `0, τ 1, (τ 1) + (τ 2), …` in the arithmetic `F`. -/
def accP (F : Arith) (τ : ℕ → ℝ) : ℕ → ℝ
  | 0 => 0
  | k + 1 => F.add (F.accP τ k) (τ (k + 1))

/-- Running radiance in the arithmetic `F`. -/
def accS (F : Arith) (B τ : ℕ → ℝ) : ℕ → ℝ
  | 0 => 0
  | k + 1 => F.add (F.accS B τ k) (F.batmlay (B k) (B (k + 1)) (τ (k + 1)) (F.accP τ k))

theorem groundArrays_spec (F : Arith) (hvk : ℝ) (nl : ℕ) (t τ : ℕ → ℝ) (hnl : 1 ≤ nl) :
    ∀ i < nl, (F.groundArrays hvk nl t τ).boft i = F.tk2b hvk (t i) ∧
      (F.groundArrays hvk nl t τ).tauprof i = F.accP τ i ∧
      (F.groundArrays hvk nl t τ).boftatm i = F.accS (fun i => F.tk2b hvk (t i)) τ i := by
  unfold groundArrays
  apply forRange_inv (I := fun n (a : PlanckArrays) => ∀ i < n, a.boft i = F.tk2b hvk (t i) ∧
      a.tauprof i = F.accP τ i ∧
      a.boftatm i = F.accS (fun i => F.tk2b hvk (t i)) τ i) hnl
  · intro i hi
    obtain rfl : i = 0 := by omega
    simp [PlanckArrays.zeros, accP, accS]
  · intro n a hn _ ih i hi
    obtain ⟨k, rfl⟩ : ∃ k, n = k + 1 := ⟨n - 1, by omega⟩
    have hk := ih k (by omega)
    rcases Nat.lt_or_ge i (k + 1) with h | h
    · have := ih i h
      have hne : i ≠ k + 1 := by omega
      simp only [groundBody, Function.update_of_ne hne]
      exact this
    · obtain rfl : i = k + 1 := by omega
      simp only [groundBody, Function.update_self, Nat.add_sub_cancel]
      have hne : k ≠ k + 1 := by omega
      rw [Function.update_of_ne hne, hk.1, hk.2.1, hk.2.2]
      exact ⟨trivial, rfl, rfl⟩

theorem satArrays_spec (F : Arith) (hvk : ℝ) (n : ℕ) (t τ : ℕ → ℝ) :
    ∀ i ≤ n, (F.satArrays hvk (n + 1) t τ).boft i = F.tk2b hvk (t i) ∧
      (F.satArrays hvk (n + 1) t τ).tauprof i = F.accP (fun j => τ (n + 1 - j)) (n - i) ∧
      (F.satArrays hvk (n + 1) t τ).boftatm i =
        F.accS (fun j => F.tk2b hvk (t (n - j))) (fun j => τ (n + 1 - j)) (n - i) := by
  unfold satArrays
  have := forDown_inv (n := n + 1 - 1) (f := F.satBody hvk t τ)
    (I := fun k (a : PlanckArrays) => ∀ i ≤ n, k ≤ i → a.boft i = F.tk2b hvk (t i) ∧
      a.tauprof i = F.accP (fun j => τ (n + 1 - j)) (n - i) ∧
      a.boftatm i = F.accS (fun j => F.tk2b hvk (t (n - j))) (fun j => τ (n + 1 - j)) (n - i))
    (s := { PlanckArrays.zeros with
      boft := Function.update (fun _ => 0) (n + 1 - 1) (F.tk2b hvk (t (n + 1 - 1))) }) ?_ ?_
  · intro i hi; exact this i hi (Nat.zero_le i)
  · intro i hi hk
    obtain rfl : i = n := by omega
    simp [PlanckArrays.zeros, accP, accS]
  · intro k a hk ih i hi hki
    have hk1 := ih (k + 1) (by omega) le_rfl
    rcases Nat.lt_or_ge k i with h | h
    · have := ih i hi h
      have hne : i ≠ k := by omega
      simp only [satBody, Function.update_of_ne hne]
      exact this
    · obtain rfl : i = k := by omega
      simp only [satBody, Function.update_self]
      have hne : i + 1 ≠ i := by omega
      rw [Function.update_of_ne hne, hk1.1, hk1.2.1, hk1.2.2]
      obtain ⟨m, rfl⟩ : ∃ m, n = i + 1 + m := ⟨n - (i + 1), by omega⟩
      have e1 : i + 1 + m - i = m + 1 := by omega
      have e2 : i + 1 + m - (i + 1) = m := by omega
      rw [e1, e2]
      refine ⟨trivial, ?_, ?_⟩
      · rw [accP]; congr 2; omega
      · rw [accS]
        have e3 : i + 1 + m - m = i + 1 := by omega
        have e4 : i + 1 + m - (m + 1) = i := by omega
        have e5 : i + 1 + m + 1 - (m + 1) = i + 1 := by omega
        simp only [e3, e4, e5]

/-! ## Real arithmetic -/

theorem exact_accurate : Arith.exact.Accurate 0 := by
  constructor <;> intros <;> simp [Arith.exact]

section
variable (a b : ℝ)
@[simp] theorem exact_add : Arith.exact.add a b = a + b := rfl
@[simp] theorem exact_sub : Arith.exact.sub a b = a - b := rfl
@[simp] theorem exact_mul : Arith.exact.mul a b = a * b := rfl
@[simp] theorem exact_div : Arith.exact.div a b = a / b := rfl
@[simp] theorem exact_exp : Arith.exact.exp a = Real.exp a := rfl
@[simp] theorem exact_log : Arith.exact.log a = Real.log a := rfl
@[simp] theorem exact_lit : Arith.exact.lit a = a := rfl
end

theorem exact_tk2b (hvk t : ℝ) : Arith.exact.tk2b hvk t = Model.tk2b hvk t := by
  simp [tk2b, Model.tk2b, norm_one]

theorem exact_hvkOf (frq : ℝ) : Arith.exact.hvkOf frq = Model.hvkOf frq := by
  simp [hvkOf, Model.hvkOf]

theorem exact_bright (hvk b : ℝ) : Arith.exact.bright hvk b = Model.bright hvk b := by
  have key : ∀ a, Arith.exact.add 1 (Arith.exact.div 1 b) = a → b ≠ 0 →
      Arith.exact.bright hvk b = (npLog a).bind fun l => npDiv hvk l := by
    intro a ha hb
    unfold bright
    rw [if_pos hb, ha]
    unfold npLog npDiv
    by_cases h1 : a ≤ 0
    · rw [if_pos h1, if_neg (not_lt.2 h1)]; rfl
    · rw [if_neg h1, if_pos (not_le.1 h1)]; rfl
  by_cases h : b = 0
  · simp [h, bright, Model.bright]
  · rw [key (1 + 1 / b) rfl h]
    unfold Model.bright
    rw [if_pos h, norm_one]

theorem exact_groundArrays (hvk : ℝ) (nl : ℕ) (t τ : ℕ → ℝ) :
    Arith.exact.groundArrays hvk nl t τ = Model.groundArrays hvk nl t τ := by
  unfold groundArrays Model.groundArrays
  simp only [exact_tk2b]
  congr 1
  funext i a
  simp [groundBody, Model.groundBody, batmlay, exact_tk2b, norm_one]

theorem exact_satArrays (hvk : ℝ) (nl : ℕ) (t τ : ℕ → ℝ) :
    Arith.exact.satArrays hvk nl t τ = Model.satArrays hvk nl t τ := by
  unfold satArrays Model.satArrays
  simp only [exact_tk2b]
  congr 1
  funext i a
  simp [satBody, Model.satBody, batmlay, exact_tk2b, norm_one]

/-- In real arithmetic the functions of `Model/Rounded.lean` are those of `Model/Planck.lean`. -/
theorem exact_planck (s : Bool) (es frq : ℝ) (nl : ℕ) (t τ : ℕ → ℝ) :
    Arith.exact.planck s es frq nl t τ
      = (Model.planck s es frq nl t τ).map fun o => (o.boftotl, o.hvk) := by
  unfold planck Model.planck
  by_cases hn : nl = 0
  · simp [hn]
  rw [if_neg hn, if_neg hn]
  simp only [exact_hvkOf, exact_satArrays, exact_groundArrays, exact_tk2b, expmax_eq]
  cases s
  · simp only [Bool.false_eq_true, if_false]
    split_ifs <;> simp
  · simp only [if_true]
    split_ifs <;> simp [norm_zero']

end Verif.Model.Arith
