import Verif.Model.Frequencies
import Verif.Model.Utils
import Mathlib.Tactic.NormNum
import Mathlib.Tactic.IntervalCases

/-!
# C48, C49: gas masses and instrument frequency tables
-/

namespace Verif.Props

open Verif.Py Verif.Model

/-! ## C48 -/

/-- Mass number from the numbers of H, C, N, O, F, P, S, Cl, Br, I atoms. -/
def massNumber (H C N O F P S Cl Br I : ℚ) : ℚ :=
  H * 1 + C * 12 + N * 14 + O * 16 + F * 19 + P * 31 + S * 32 + Cl * 35 + Br * 80 + I * 127

/-- Composition of the molecules numbered 0..31 in `AtmosphericProfiles` (atmospheric_profiles.py:55-88). -/
def molecule : List ℚ :=
  [massNumber 2 0 0 1 0 0 0 0 0 0,   -- H2O
   massNumber 0 1 0 2 0 0 0 0 0 0,   -- CO2
   massNumber 0 0 0 3 0 0 0 0 0 0,   -- O3
   massNumber 0 0 2 1 0 0 0 0 0 0,   -- N2O
   massNumber 0 1 0 1 0 0 0 0 0 0,   -- CO
   massNumber 4 1 0 0 0 0 0 0 0 0,   -- CH4
   massNumber 0 0 0 2 0 0 0 0 0 0,   -- O2
   massNumber 0 0 1 1 0 0 0 0 0 0,   -- NO
   massNumber 0 0 0 2 0 0 1 0 0 0,   -- SO2
   massNumber 0 0 1 2 0 0 0 0 0 0,   -- NO2
   massNumber 3 0 1 0 0 0 0 0 0 0,   -- NH3
   massNumber 1 0 1 3 0 0 0 0 0 0,   -- HNO3
   massNumber 1 0 0 1 0 0 0 0 0 0,   -- OH
   massNumber 1 0 0 0 1 0 0 0 0 0,   -- HF
   massNumber 1 0 0 0 0 0 0 1 0 0,   -- HCl
   massNumber 1 0 0 0 0 0 0 0 1 0,   -- HBr
   massNumber 1 0 0 0 0 0 0 0 0 1,   -- HI
   massNumber 0 0 0 1 0 0 0 1 0 0,   -- ClO
   massNumber 0 1 0 1 0 0 1 0 0 0,   -- OCS
   massNumber 2 1 0 1 0 0 0 0 0 0,   -- H2CO
   massNumber 1 0 0 1 0 0 0 1 0 0,   -- HOCl
   massNumber 0 0 2 0 0 0 0 0 0 0,   -- N2
   massNumber 1 1 1 0 0 0 0 0 0 0,   -- HCN
   massNumber 3 1 0 0 0 0 0 1 0 0,   -- CH3Cl
   massNumber 2 0 0 2 0 0 0 0 0 0,   -- H2O2
   massNumber 2 2 0 0 0 0 0 0 0 0,   -- C2H2
   massNumber 6 2 0 0 0 0 0 0 0 0,   -- C2H6
   massNumber 3 0 0 0 0 1 0 0 0 0,   -- PH3
   massNumber 0 1 0 1 2 0 0 0 0 0,   -- COF2
   massNumber 0 0 0 0 6 0 1 0 0 0,   -- SF6
   massNumber 2 0 0 0 0 0 1 0 0 0,   -- H2S
   massNumber 0 1 0 0 1 0 0 3 0 0]   -- CCl3F

/-- The gas ids for which a mass is known are 0..31 and 99 (air); every other integer, in particular the ids 32..43
that `AtmosphericProfiles` gives to CFCs and nitrogen species, raises. -/
theorem C48_ids (id : ℤ) :
    (∃ m, gasMass id = .ok m ∧ 0 < m) ∧ ((0 ≤ id ∧ id ≤ 31) ∨ id = 99) ∨
    gasMass id = .error .unboundLocalError ∧ ¬((0 ≤ id ∧ id ≤ 31) ∨ id = 99) := by
  by_cases h : (0 ≤ id ∧ id ≤ 31) ∨ id = 99
  · left
    refine ⟨?_, h⟩
    rcases h with ⟨h0, h1⟩ | rfl
    · interval_cases id <;> exact ⟨_, rfl, by norm_num⟩
    · exact ⟨_, rfl, by norm_num⟩
  · right
    refine ⟨?_, h⟩
    have : gasAmus id = none := by
      unfold gasAmus
      split <;> first | rfl | (exfalso; apply h; norm_num)
    simp [gasMass, this]

/-- For the ids 0..30 the mass is the proton mass times the mass number of the molecule of that id. -/
theorem C48_masses (id : ℕ) (h : id < 31) :
    ∃ a, molecule[id]? = some a ∧ gasMass id = .ok (1.6726485e-27 * (a : ℝ)) := by
  interval_cases id <;>
    refine ⟨_, rfl, ?_⟩ <;>
    simp only [gasMass, gasAmus, massNumber, Nat.cast_ofNat, Nat.cast_zero, Nat.cast_one] <;> norm_num

/-- Id 31 is CCl3F in `AtmosphericProfiles` but gets the mass 46 of formic acid (the next molecule of HITRAN). -/
theorem C48_masses_refuted : ¬ ∀ id : ℕ, id < 32 →
    ∃ a, molecule[id]? = some a ∧ gasMass id = .ok (1.6726485e-27 * (a : ℝ)) := by
  intro h
  obtain ⟨a, h1, h2⟩ := h 31 (by norm_num)
  have ha : a = massNumber 0 1 0 0 1 0 0 3 0 0 := by
    have : molecule[31]? = some (massNumber 0 1 0 0 1 0 0 3 0 0) := rfl
    rw [this] at h1; exact (Option.some.inj h1).symm
  subst ha
  simp only [gasMass, gasAmus, Nat.cast_ofNat, Except.ok.injEq, massNumber] at h2
  norm_num at h2

/-- Volume to mass mixing ratio: `ppmv · 1e-3 · M / M_air`, linear in the ppmv. -/
theorem C48_ppmv {id : ℤ} {M : ℝ} (h : gasMass id = .ok M) (x : ℝ) :
    ∃ Mair, gasMass 99 = .ok Mair ∧ 0 < Mair ∧ ppmv2gkg x id = .ok (x * (M / Mair) / 1000) := by
  have h99 : ∃ Mair, gasMass 99 = .ok Mair ∧ 0 < Mair := ⟨_, rfl, by norm_num⟩
  obtain ⟨Mair, h99, hpos⟩ := h99
  refine ⟨Mair, h99, hpos, ?_⟩
  simp only [ppmv2gkg, h, h99, bind, Except.bind, pure, Except.pure, Except.ok.injEq]
  norm_num
  ring

example : ∃ M, gasMass 0 = .ok M := ⟨_, rfl⟩

/-! ## C49 -/

/-- The channels come in increasing order, each once. -/
def Increasing (l : List ℚ) : Prop := l.Pairwise (· < ·)

instance (l : List ℚ) : Decidable (Increasing l) := by unfold Increasing; infer_instance

theorem lookup_cases {β : Type*} (k : String) (l : List (String × β)) :
    (∃ b, l.lookup k = some b ∧ (k, b) ∈ l ∧ k ∈ l.map Prod.fst) ∨ l.lookup k = none ∧ k ∉ l.map Prod.fst := by
  cases h : l.lookup k with
  | none =>
    refine Or.inr ⟨rfl, fun hm => ?_⟩
    obtain ⟨r, hr, hk⟩ := List.mem_map.mp hm
    have := List.lookup_eq_none_iff.mp h r hr
    simp [hk] at this
  | some b =>
    obtain ⟨l1, l2, e, _⟩ := List.lookup_eq_some_iff.mp h
    refine Or.inl ⟨b, rfl, by rw [e]; simp, by rw [e]; simp⟩

/-- Ground instruments: the five names, in any letter case, give a non-empty strictly increasing list; every other
name raises `ValueError`. -/
theorem C49_ground (s : String) :
    (∃ l, getFrequencies s = .ok l ∧ l ≠ [] ∧ Increasing l) ∧ s.toLower ∈ ["hat", "mp3", "arm", "tem", "k2w"] ∨
    getFrequencies s = .error .valueError ∧ s.toLower ∉ ["hat", "mp3", "arm", "tem", "k2w"] := by
  have hall : ∀ r ∈ groundTable, r.2 ≠ [] ∧ Increasing r.2 := by decide +kernel
  unfold getFrequencies
  rcases lookup_cases s.toLower groundTable with ⟨l, h, hm, hk⟩ | ⟨h, hk⟩
  · rw [h]; exact Or.inl ⟨⟨l, rfl, hall _ hm⟩, hk⟩
  · rw [h]; exact Or.inr ⟨rfl, hk⟩

/-- Satellite instruments: the six names, in any letter case, give a non-empty list of positive frequencies; every
other name raises `ValueError`. -/
theorem C49_satellite (s : String) :
    (∃ l, getFrequenciesSat s = .ok l ∧ l ≠ [] ∧ ∀ f ∈ l, 0 < f) ∧
      s.toUpper ∈ ["SAPHIR", "AMSU", "ATMS", "MWI", "MWS", "ICI"] ∨
    getFrequenciesSat s = .error .valueError ∧ s.toUpper ∉ ["SAPHIR", "AMSU", "ATMS", "MWI", "MWS", "ICI"] := by
  have hall : ∀ r ∈ satTable, r.2 ≠ [] ∧ ∀ f ∈ r.2, 0 < f := by decide +kernel
  unfold getFrequenciesSat
  rcases lookup_cases s.toUpper satTable with ⟨l, h, hm, hk⟩ | ⟨h, hk⟩
  · rw [h]; exact Or.inl ⟨⟨l, rfl, hall _ hm⟩, hk⟩
  · rw [h]; exact Or.inr ⟨rfl, hk⟩

/-- Band centres with the width of the band around them (GHz). -/
def bands : List (ℚ × ℚ) :=
  [(118.7503, 4), (165.5, 1), (183.31, 11), (243.20, 3), (325.15, 10), (448, 8), (664, 5)]

/-- Except for MWS, every satellite list is strictly increasing and symmetric around each band centre: with every
lower sideband it contains the upper one and conversely. -/
theorem C49_sidebands {s : String} {l : List ℚ} (h : getFrequenciesSat s = .ok l) (hs : s.toUpper ≠ "MWS") :
    Increasing l ∧ ∀ c ∈ bands, ∀ f ∈ l, |f - c.1| ≤ c.2 → 2 * c.1 - f ∈ l := by
  have hall : ∀ r ∈ satTable, r.1 ≠ "MWS" →
      Increasing r.2 ∧ ∀ c ∈ bands, ∀ f ∈ r.2, |f - c.1| ≤ c.2 → 2 * c.1 - f ∈ r.2 := by decide +kernel
  unfold getFrequenciesSat at h
  rcases lookup_cases s.toUpper satTable with ⟨l', h', hm, _⟩ | ⟨h', _⟩
  · rw [h'] at h; cases h; exact hall _ hm hs
  · rw [h'] at h; cases h

/-- MWS lists the channel 57.290344 - 0.217 GHz twice and does not contain its upper sideband: it is neither free of
repetitions nor symmetric. -/
theorem C49_mws_refuted {s : String} (hs : s.toUpper = "MWS") :
    ∃ l, getFrequenciesSat s = .ok l ∧ l.count (57.290344 - 0.217) = 2 ∧ (57.290344 + 0.217) ∉ l := by
  unfold getFrequenciesSat
  rw [hs]
  refine ⟨_, rfl, ?_, ?_⟩ <;> decide +kernel

example : ∃ l, getFrequenciesSat "mws" = .ok l ∧ l.count (57.290344 - 0.217) = 2 ∧ (57.290344 + 0.217) ∉ l :=
  C49_mws_refuted (by decide +kernel)

example : ∃ l, getFrequenciesSat "Saphir" = .ok l ∧ Increasing l := by
  rcases C49_satellite "Saphir" with ⟨⟨l, h, _⟩, _⟩ | ⟨_, h⟩
  · exact ⟨l, h, (C49_sidebands h (by decide +kernel)).1⟩
  · exact absurd (by decide +kernel) h

end Verif.Props
