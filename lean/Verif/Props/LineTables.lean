import Verif.Lemmas.TableRat
import Verif.Lemmas.WaterTables
import Verif.Lemmas.Oxygen
import Verif.Lemmas.ParamAlias
import Verif.Spec.LineTables
import Mathlib.Tactic.Linarith

/-!
# C87: the loaded line lists
-/

namespace Verif.Props

open Verif.Model Verif.Py Verif.Lemmas Verif.Spec

variable {m : String} {F : LineList}

theorem waterFile_group (hF : waterFile m = some F) :
    ∃ T, waterGroups.lookup m = some T ∧ (m, T) ∈ waterGroups ∧
      F "len(fl)" = (some fun _ => (T.rows : ℝ)) ∧
      ∀ a r, ratAttr (waterAssign m) T a = some r → F a = some fun k => (r k : ℝ) := by
  unfold waterFile at hF
  obtain ⟨T, hT, rfl⟩ := Option.map_eq_some_iff.1 hF
  refine ⟨T, hT, lookup_mem hT, ?_, fun a r h => ratAttr_val h⟩
  show (lastAssign (waterAssign m) "len(fl)").bind (Src.val T) = _
  rw [waterGroups_len]
  rfl

set_option maxRecDepth 10000 in
theorem waterGroups_ranges : ∀ g ∈ waterGroups,
    rising (waterAssign g.1) g.2 "fl" ∧
    allOf (waterAssign g.1) g.2 "w0" (fun w => decide (1 / 1000 ≤ w ∧ w ≤ 33 / 10000)) ∧
    allOf (waterAssign g.1) g.2 "x" (fun x => decide (37 / 100 ≤ x ∧ x ≤ 79 / 100)) ∧
    allOf (waterAssign g.1) g.2 "xs" (fun x => decide (0 ≤ x ∧ x ≤ 12 / 10)) ∧
    allOf (waterAssign g.1) g.2 "b2" (fun x => decide (0 < x ∧ x < 17)) ∧
    allOf2 (waterAssign g.1) g.2 "w0" "w0s" (fun w s => decide (4 * w ≤ s ∧ s ≤ 101 / 10 * w)) := by
  decide +kernel

/-- **C87.** In every water vapour list that can be loaded, the lines are in order of frequency, have half-widths between
1 and 3.3 MHz/mbar in air (in GHz/mbar as loaded), four to ten times as much in vapour, and exponents between 0.37 and 0.79
in air, 0 and 1.2 in vapour. -/
theorem C87_water (hF : waterFile m = some F) :
    ∃ (n : ℕ) (fl b2 w0 x w0s xs : Val), F "len(fl)" = (some fun _ => (n : ℝ)) ∧ F "fl" = some fl ∧ F "b2" = some b2 ∧
      F "w0" = some w0 ∧ F "x" = some x ∧ F "w0s" = some w0s ∧ F "xs" = some xs ∧ 15 ≤ n ∧
      (∀ i j, i < j → j < n → fl i < fl j) ∧
      ∀ i < n, 0.001 ≤ w0 i ∧ w0 i ≤ 0.0033 ∧ 4 * w0 i ≤ w0s i ∧ w0s i ≤ 10.1 * w0 i ∧
        0.37 ≤ x i ∧ x i ≤ 0.79 ∧ 0 ≤ xs i ∧ xs i ≤ 1.2 ∧ 0 < b2 i ∧ b2 i < 17 := by
  obtain ⟨T, -, hT, hn, h⟩ := waterFile_group hF
  obtain ⟨h1, h2, h3, h4, h5, h6⟩ := waterGroups_ranges _ hT
  obtain ⟨fl, hfl, h1⟩ := rising_some h1
  obtain ⟨w0, hw, h2⟩ := allOf_some h2
  obtain ⟨x, hx, h3⟩ := allOf_some h3
  obtain ⟨xs, hxs, h4⟩ := allOf_some h4
  obtain ⟨b2, hb, h5⟩ := allOf_some h5
  obtain ⟨w0', w0s, hw', hws, h6⟩ := allOf2_some h6
  rw [hw] at hw'
  cases hw'
  have hrow : 15 ≤ T.rows := by
    have : ∀ g ∈ waterGroups, 15 ≤ g.2.rows := by decide +kernel
    exact this _ hT
  refine ⟨T.rows, _, _, _, _, _, _, hn, h _ _ hfl, h _ _ hb, h _ _ hw, h _ _ hx, h _ _ hws, h _ _ hxs, hrow,
    fun i j hij hj => by exact_mod_cast h1 i j hij hj, fun i hi => ?_⟩
  have a2 := h2 i hi
  have a3 := h3 i hi
  have a4 := h4 i hi
  have a5 := h5 i hi
  have a6 := h6 i hi
  simp only [decide_eq_true_eq] at a2 a3 a4 a5 a6
  obtain ⟨b1, b2⟩ := a2
  obtain ⟨b3, b4⟩ := a3
  obtain ⟨b5, b6⟩ := a4
  obtain ⟨b7, b8⟩ := a5
  obtain ⟨b9, b10⟩ := a6
  have c1 : ((1 / 1000 : ℚ) : ℝ) ≤ w0 i := by exact_mod_cast b1
  have c2 : (w0 i : ℝ) ≤ ((33 / 10000 : ℚ) : ℝ) := by exact_mod_cast b2
  have c3 : ((37 / 100 : ℚ) : ℝ) ≤ x i := by exact_mod_cast b3
  have c4 : (x i : ℝ) ≤ ((79 / 100 : ℚ) : ℝ) := by exact_mod_cast b4
  have c5 : ((0 : ℚ) : ℝ) ≤ xs i := by exact_mod_cast b5
  have c6 : (xs i : ℝ) ≤ ((12 / 10 : ℚ) : ℝ) := by exact_mod_cast b6
  have c9 : ((4 * w0 i : ℚ) : ℝ) ≤ w0s i := by exact_mod_cast b9
  have c10 : (w0s i : ℝ) ≤ ((101 / 10 * w0 i : ℚ) : ℝ) := by exact_mod_cast b10
  push_cast at c1 c2 c3 c4 c5 c6 c9 c10
  refine ⟨by norm_num at c1 ⊢; exact c1, by norm_num at c2 ⊢; exact c2, c9, by norm_num at c10 ⊢; exact c10,
    by norm_num at c3 ⊢; exact c3, by norm_num at c4 ⊢; exact c4, c5, by norm_num at c6 ⊢; exact c6,
    by exact_mod_cast b7, by exact_mod_cast b8⟩

/-- Does the loaded attribute agree with the recorded values of the lines 22 and 183 GHz to twelve digits? -/
def agrees (T : RawTable) (m : String) (e : String × ℚ × ℚ) : Bool :=
  match ratAttr (waterAssign m) T e.1 with
  | none => false
  | some r => decide (|r 0 - e.2.1| ≤ 1 / 10 ^ 12 * |e.2.1|) && decide (|r 1 - e.2.2| ≤ 1 / 10 ^ 12 * |e.2.2|)

set_option maxRecDepth 10000 in
theorem waterGroups_recorded : ∀ g ∈ waterGroups, ∃ es, recordedWater.lookup g.1 = some es ∧
    ∀ e ∈ es, agrees g.2 g.1 e = true := by
  have : ∀ g ∈ waterGroups, ((recordedWater.lookup g.1).map fun es => es.all fun e => agrees g.2 g.1 e) = some true := by
    decide +kernel
  intro g hg
  obtain ⟨es, he, h⟩ := Option.map_eq_some_iff.1 (this g hg)
  exact ⟨es, he, fun e hx => List.all_eq_true.1 h e hx⟩

/-- **C87.** The lines at 22 and 183 GHz have the recorded frequency, strength, widths, exponents, shifts and speed
dependence, under the attribute named for each, in every list that can be loaded. -/
theorem C87_recorded (hF : waterFile m = some F) : ∃ es, recordedWater.lookup m = some es ∧
    ∀ e ∈ es, ∃ v : Val, F e.1 = some v ∧ |v 0 - e.2.1| ≤ 1e-12 * |(e.2.1 : ℝ)| ∧
      |v 1 - e.2.2| ≤ 1e-12 * |(e.2.2 : ℝ)| := by
  obtain ⟨T, -, hT, -, h⟩ := waterFile_group hF
  obtain ⟨es, he, hes⟩ := waterGroups_recorded _ hT
  refine ⟨es, he, fun e hx => ?_⟩
  have := hes e hx
  unfold agrees at this
  cases hr : ratAttr (waterAssign m) T e.1 with
  | none => simp [hr] at this
  | some r =>
    rw [hr] at this
    simp only [Bool.and_eq_true, decide_eq_true_eq] at this
    have c1 : ((|r 0 - e.2.1| : ℚ) : ℝ) ≤ ((1 / 10 ^ 12 * |e.2.1| : ℚ) : ℝ) := by exact_mod_cast this.1
    have c2 : ((|r 1 - e.2.2| : ℚ) : ℝ) ≤ ((1 / 10 ^ 12 * |e.2.2| : ℚ) : ℝ) := by exact_mod_cast this.2
    push_cast at c1 c2
    exact ⟨_, h _ _ hr, by norm_num at c1 ⊢; exact c1, by norm_num at c2 ⊢; exact c2⟩

/-- The numbers of a list that do not belong to a line, in rational arithmetic: test of one against a condition. -/
def scalarOf (m : String) (T : RawTable) (a : String) (P : ℚ → Bool) : Bool :=
  match ratAttr (waterAssign m) T a with
  | none => false
  | some r => P (r 0)

theorem scalarOf_some {T : RawTable} {a : String} {P : ℚ → Bool} (h : scalarOf m T a P = true) :
    ∃ r, ratAttr (waterAssign m) T a = some r ∧ P (r 0) = true := by
  unfold scalarOf at h
  cases hr : ratAttr (waterAssign m) T a with
  | none => simp [hr] at h
  | some r => exact ⟨r, rfl, by rw [hr] at h; exact h⟩

set_option maxRecDepth 10000 in
theorem waterGroups_continuum : ∀ g ∈ waterGroups,
    scalarOf g.1 g.2 "reftcon" (fun r => decide (r = if g.1 ∈ ["R23SD", "R24"] then 296 else 300)) ∧
    scalarOf g.1 g.2 "cf" (fun r => decide (55 / 10 ^ 11 < r ∧ r < 60 / 10 ^ 11)) ∧
    scalarOf g.1 g.2 "xcf" (fun r => decide (r = 3)) ∧
    (g.1 ∉ ["R23SD", "R24"] → scalarOf g.1 g.2 "cs" (fun r => decide (141 / 10 ^ 10 < r ∧ r < 143 / 10 ^ 10)) ∧
      scalarOf g.1 g.2 "xcs" (fun r => decide (r = 75 / 10))) ∧
    (g.1 ∈ ["R23SD", "R24"] → scalarOf g.1 g.2 "cs" (fun r => decide (r < 0))) := by
  decide +kernel

/-- **C87.** The continuum in every list is within ten percent of that of R98: foreign strength
between 5.5 and 6 · 10⁻¹⁰ with exponent 3, self between 1.41 and 1.43 · 10⁻⁸ with exponent 7.5, at 300 K. R23SD and R24 have
instead 296 K and a negative number in place of the self strength: theirs is tabulated. -/
theorem C87_continuum (hF : waterFile m = some F) : ∃ cf xcf cs tc : Val, F "cf" = some cf ∧ F "xcf" = some xcf ∧
    F "cs" = some cs ∧ F "reftcon" = some tc ∧ 5.5e-10 < cf 0 ∧ cf 0 < 6e-10 ∧ xcf 0 = 3 ∧
    (m ∉ ["R23SD", "R24"] → tc 0 = 300 ∧ 1.41e-8 < cs 0 ∧ cs 0 < 1.43e-8 ∧
      ∃ xcs : Val, F "xcs" = some xcs ∧ xcs 0 = 7.5) ∧
    (m ∈ ["R23SD", "R24"] → tc 0 = 296 ∧ cs 0 < 0) := by
  obtain ⟨T, -, hT, -, h⟩ := waterFile_group hF
  obtain ⟨h1, h2, h3, h4, h5⟩ := waterGroups_continuum _ hT
  obtain ⟨tc, htc, h1⟩ := scalarOf_some h1
  obtain ⟨cf, hcf, h2⟩ := scalarOf_some h2
  obtain ⟨xcf, hxcf, h3⟩ := scalarOf_some h3
  simp only [decide_eq_true_eq] at h1 h2 h3
  obtain ⟨cs, hcs⟩ : ∃ r, ratAttr (waterAssign m) T "cs" = some r := by
    by_cases hm : m ∈ ["R23SD", "R24"]
    · exact (scalarOf_some (h5 hm)).imp fun _ h => h.1
    · exact (scalarOf_some (h4 hm).1).imp fun _ h => h.1
  have c1 : ((55 / 10 ^ 11 : ℚ) : ℝ) < cf 0 := by exact_mod_cast h2.1
  have c2 : (cf 0 : ℝ) < ((60 / 10 ^ 11 : ℚ) : ℝ) := by exact_mod_cast h2.2
  push_cast at c1 c2
  refine ⟨_, _, _, _, h _ _ hcf, h _ _ hxcf, h _ _ hcs, h _ _ htc, by norm_num at c1 ⊢; exact c1,
    by norm_num at c2 ⊢; exact c2, by simp [h3], fun hm => ?_, fun hm => ?_⟩
  · obtain ⟨s, hs, h6⟩ := scalarOf_some (h4 hm).1
    rw [hcs] at hs
    cases hs
    obtain ⟨xcs, hxcs, h7⟩ := scalarOf_some (h4 hm).2
    simp only [decide_eq_true_eq] at h6 h7
    have c3 : ((141 / 10 ^ 10 : ℚ) : ℝ) < cs 0 := by exact_mod_cast h6.1
    have c4 : (cs 0 : ℝ) < ((143 / 10 ^ 10 : ℚ) : ℝ) := by exact_mod_cast h6.2
    push_cast at c3 c4
    rw [if_neg hm] at h1
    exact ⟨by simp [h1], by norm_num at c3 ⊢; exact c3, by norm_num at c4 ⊢; exact c4, _, h _ _ hxcs,
      by simp only [h7]; norm_num⟩
  · obtain ⟨s, hs, h6⟩ := scalarOf_some (h5 hm)
    rw [hcs] at hs
    cases hs
    simp only [decide_eq_true_eq] at h6
    rw [if_pos hm] at h1
    exact ⟨by simp [h1], by exact_mod_cast h6⟩

example : ∃ F, waterFile "R98" = some F := ⟨_, rfl⟩

/-- **C87.** The speed dependence of the line shift in R20SD is −0.016 MHz/mbar in air and +0.16 in water vapour, the values
recorded in the file under these names. -/
theorem C87_extra (hF : waterFile "R20SD" = some F) : ∃ da ds : Val, F "d2air" = some da ∧ F "d2self" = some ds ∧
    |da 0 + 1.6e-5| < 1e-12 ∧ |ds 0 - 1.6e-4| < 1e-11 := by
  obtain ⟨T, -, hT, -, h⟩ := waterFile_group hF
  have : ∀ g ∈ waterGroups, g.1 = "R20SD" →
      scalarOf g.1 g.2 "d2air" (fun r => decide (|r + 16 / 10 ^ 6| < 1 / 10 ^ 12)) ∧
      scalarOf g.1 g.2 "d2self" (fun r => decide (|r - 16 / 10 ^ 5| < 1 / 10 ^ 11)) := by decide +kernel
  obtain ⟨h1, h2⟩ := this _ hT rfl
  obtain ⟨da, ha, h1⟩ := scalarOf_some h1
  obtain ⟨ds, hs, h2⟩ := scalarOf_some h2
  simp only [decide_eq_true_eq] at h1 h2
  have c1 : ((|da 0 + 16 / 10 ^ 6| : ℚ) : ℝ) < ((1 / 10 ^ 12 : ℚ) : ℝ) := by exact_mod_cast h1
  have c2 : ((|ds 0 - 16 / 10 ^ 5| : ℚ) : ℝ) < ((1 / 10 ^ 11 : ℚ) : ℝ) := by exact_mod_cast h2
  push_cast at c1 c2
  exact ⟨_, _, h _ _ ha, h _ _ hs, by norm_num at c1 ⊢; exact c1, by norm_num at c2 ⊢; exact c2⟩

/-- The lists that can be loaded are exactly the recorded ones. -/
theorem C87_complete : (waterFile m).isSome ↔ (recordedWater.lookup m).isSome := by
  have key : recordedWater.map Prod.fst = waterGroups.map Prod.fst := by decide +kernel
  have gen {α : Type} (l : List (String × α)) : (l.lookup m).isSome ↔ m ∈ l.map Prod.fst := by
    induction l with
    | nil => simp
    | cons e l ih =>
      obtain ⟨k, v⟩ := e
      by_cases hk : m = k
      · subst hk; simp
      · rw [List.lookup_cons, beq_false_of_ne hk]; simp [ih, hk]
  unfold waterFile
  rw [Option.isSome_map, gen, gen, key]

set_option maxRecDepth 10000 in
theorem waterGroups_speed : ∀ g ∈ waterGroups, isSD g.1 = true →
    allOf2 (waterAssign g.1) g.2 "w0" "w2" (fun w v => decide (0 ≤ v ∧ v ≤ 16 / 100 * w)) ∧
    allOf2 (waterAssign g.1) g.2 "w0s" "w2s" (fun w v => decide (0 ≤ v ∧ v ≤ 15 / 100 * w)) ∧
    allOf2 (waterAssign g.1) g.2 "w2" "w2s" (fun w v => decide (w = 0 ↔ v = 0)) ∧
    allOf2 (waterAssign g.1) g.2 "fl" "w2" (fun f v => decide (200 < f → v = 0)) ∧
    allOf2 (waterAssign g.1) g.2 "fl" "w2" (fun f v => decide (100 < f → f < 200 → 0 < v)) := by
  decide +kernel

/-- **C87.** In the speed-dependent models the speed dependence is below 16 % of the width in air and 15 % in vapour, is
there for both or none, is there at 183 GHz, and never for lines above 200 GHz. -/
theorem C87_speed (hF : waterFile m = some F) (hm : isSD m = true) :
    ∃ (n : ℕ) (fl w0 w0s w2 w2s : Val), F "len(fl)" = (some fun _ => (n : ℝ)) ∧ F "fl" = some fl ∧ F "w0" = some w0 ∧
      F "w0s" = some w0s ∧ F "w2" = some w2 ∧ F "w2s" = some w2s ∧
      ∀ i < n, 0 ≤ w2 i ∧ w2 i ≤ 0.16 * w0 i ∧ 0 ≤ w2s i ∧ w2s i ≤ 0.15 * w0s i ∧ (w2 i = 0 ↔ w2s i = 0) ∧
        (200 < fl i → w2 i = 0) ∧ (100 < fl i → fl i < 200 → 0 < w2 i) := by
  obtain ⟨T, -, hT, hn, h⟩ := waterFile_group hF
  obtain ⟨h1, h2, h3, h4, h5⟩ := waterGroups_speed _ hT hm
  obtain ⟨w0, w2, hw, hw2, h1⟩ := allOf2_some h1
  obtain ⟨w0s, w2s, hws, hw2s, h2⟩ := allOf2_some h2
  obtain ⟨a, b, ha, hb, h3⟩ := allOf2_some h3
  rw [hw2] at ha
  cases ha
  rw [hw2s] at hb
  cases hb
  obtain ⟨fl, b, hf, hb, h4⟩ := allOf2_some h4
  rw [hw2] at hb
  cases hb
  obtain ⟨a, b, ha, hb, h5⟩ := allOf2_some h5
  rw [hw2] at hb
  cases hb
  rw [hf] at ha
  cases ha
  refine ⟨T.rows, _, _, _, _, _, hn, h _ _ hf, h _ _ hw, h _ _ hws, h _ _ hw2, h _ _ hw2s, fun i hi => ?_⟩
  have a1 := h1 i hi
  have a2 := h2 i hi
  have a3 := h3 i hi
  have a4 := h4 i hi
  have a5 := h5 i hi
  simp only [decide_eq_true_eq] at a1 a2 a3 a4 a5
  have c1 : (w2 i : ℝ) ≤ ((16 / 100 * w0 i : ℚ) : ℝ) := by exact_mod_cast a1.2
  have c2 : (w2s i : ℝ) ≤ ((15 / 100 * w0s i : ℚ) : ℝ) := by exact_mod_cast a2.2
  push_cast at c1 c2
  refine ⟨by exact_mod_cast a1.1, by norm_num at c1 ⊢; linarith, by exact_mod_cast a2.1, by norm_num at c2 ⊢; linarith,
    by exact_mod_cast a3, by exact_mod_cast a4, by exact_mod_cast a5⟩

set_option maxRecDepth 100000 in
theorem ozoneGroups_ranges : ∀ g ∈ ozoneGroups,
    rising ozoneAssign g.2 "fl" ∧
    allOf ozoneAssign g.2 "fl" (fun f => decide (96 < f ∧ f < 1001)) ∧
    allOf ozoneAssign g.2 "w" (fun w => decide (19 / 10000 ≤ w ∧ w ≤ 27 / 10000)) ∧
    allOf ozoneAssign g.2 "x" (fun x => decide (76 / 100 ≤ x ∧ x ≤ 84 / 100)) := by
  decide +kernel

/-- **C87.** In every ozone list the lines are in order of frequency, between 96 and 1001 GHz, with half-widths between
1.9 and 2.7 MHz/mbar and exponents between 0.76 and 0.84. -/
theorem C87_ozone (hF : ozoneFile m = some F) :
    ∃ (n : ℕ) (fl w x : Val), F "len(fl)" = (some fun _ => (n : ℝ)) ∧ F "fl" = some fl ∧ F "w" = some w ∧
      F "x" = some x ∧ 321 ≤ n ∧ (∀ i j, i < j → j < n → fl i < fl j) ∧
      ∀ i < n, 96 < fl i ∧ fl i < 1001 ∧ 0.0019 ≤ w i ∧ w i ≤ 0.0027 ∧ 0.76 ≤ x i ∧ x i ≤ 0.84 := by
  unfold ozoneFile at hF
  obtain ⟨T, hT, rfl⟩ := Option.map_eq_some_iff.1 hF
  have hT := lookup_mem hT
  obtain ⟨h1, h2, h3, h4⟩ := ozoneGroups_ranges _ hT
  obtain ⟨fl, hf, h1⟩ := rising_some h1
  obtain ⟨a, ha, h2⟩ := allOf_some h2
  rw [hf] at ha
  cases ha
  obtain ⟨w, hw, h3⟩ := allOf_some h3
  obtain ⟨x, hx, h4⟩ := allOf_some h4
  have hrow : 321 ≤ T.rows := by
    have : ∀ g ∈ ozoneGroups, 321 ≤ g.2.rows := by decide +kernel
    exact this _ hT
  refine ⟨T.rows, _, _, _, ?_, ratAttr_val hf, ratAttr_val hw, ratAttr_val hx, hrow,
    fun i j hij hj => by exact_mod_cast h1 i j hij hj, fun i hi => ?_⟩
  · rfl
  have a2 := h2 i hi
  have a3 := h3 i hi
  have a4 := h4 i hi
  simp only [decide_eq_true_eq] at a2 a3 a4
  have c1 : ((19 / 10000 : ℚ) : ℝ) ≤ w i := by exact_mod_cast a3.1
  have c2 : (w i : ℝ) ≤ ((27 / 10000 : ℚ) : ℝ) := by exact_mod_cast a3.2
  have c3 : ((76 / 100 : ℚ) : ℝ) ≤ x i := by exact_mod_cast a4.1
  have c4 : (x i : ℝ) ≤ ((84 / 100 : ℚ) : ℝ) := by exact_mod_cast a4.2
  push_cast at c1 c2 c3 c4
  exact ⟨by exact_mod_cast a2.1, by exact_mod_cast a2.2, by norm_num at c1 ⊢; exact c1, by norm_num at c2 ⊢; exact c2,
    by norm_num at c3 ⊢; exact c3, by norm_num at c4 ⊢; exact c4⟩

set_option maxRecDepth 10000 in
theorem ozoneGroups_strengths : ∀ g ∈ ozoneGroups,
    allOf ozoneAssign g.2 "s1" (fun s => decide (12 / 10 ^ 14 ≤ s ∧ s ≤ 17 / 10 ^ 12)) ∧
    allOf ozoneAssign g.2 "b" (fun b => decide (2 / 100 ≤ b ∧ b ≤ 51 / 10)) := by
  decide +kernel

/-- **C87.** In every ozone list the strengths lie between 1.2 · 10⁻¹³ and 1.7 · 10⁻¹¹ and the temperature coefficients between
0.02 and 5.1, and the reference temperature is 296 K. -/
theorem C87_ozone_strength (hF : ozoneFile m = some F) :
    ∃ (n : ℕ) (s b tr : Val), F "len(fl)" = (some fun _ => (n : ℝ)) ∧ F "s1" = some s ∧ F "b" = some b ∧
      F "reftline" = some tr ∧ tr 0 = 296 ∧
      ∀ i < n, 1.2e-13 ≤ s i ∧ s i ≤ 1.7e-11 ∧ 0.02 ≤ b i ∧ b i ≤ 5.1 := by
  unfold ozoneFile at hF
  obtain ⟨T, hT, rfl⟩ := Option.map_eq_some_iff.1 hF
  have hT := lookup_mem hT
  obtain ⟨h1, h2⟩ := ozoneGroups_strengths _ hT
  obtain ⟨s, hs, h1⟩ := allOf_some h1
  obtain ⟨b, hb, h2⟩ := allOf_some h2
  obtain ⟨r, hr, h3⟩ : ∃ r, ratAttr ozoneAssign T "reftline" = some r ∧ r 0 = 296 := by
    have : ∀ g ∈ ozoneGroups, (ratAttr ozoneAssign g.2 "reftline").map (· 0) = some 296 := by decide +kernel
    exact Option.map_eq_some_iff.1 (this _ hT)
  refine ⟨T.rows, _, _, _, rfl, ratAttr_val hs, ratAttr_val hb, ratAttr_val hr, by simp [h3], fun i hi => ?_⟩
  have a1 := h1 i hi
  have a2 := h2 i hi
  simp only [decide_eq_true_eq] at a1 a2
  have c1 : ((12 / 10 ^ 14 : ℚ) : ℝ) ≤ s i := by exact_mod_cast a1.1
  have c2 : (s i : ℝ) ≤ ((17 / 10 ^ 12 : ℚ) : ℝ) := by exact_mod_cast a1.2
  have c3 : ((2 / 100 : ℚ) : ℝ) ≤ b i := by exact_mod_cast a2.1
  have c4 : (b i : ℝ) ≤ ((51 / 10 : ℚ) : ℝ) := by exact_mod_cast a2.2
  push_cast at c1 c2 c3 c4
  exact ⟨by norm_num at c1 ⊢; exact c1, by norm_num at c2 ⊢; exact c2, by norm_num at c3 ⊢; exact c3,
    by norm_num at c4 ⊢; exact c4⟩

example : ∃ F, ozoneFile "R18" = some F := ⟨_, rfl⟩

/-- Test of an oxygen table: `last` is the number of the last line of the 60 GHz band. -/
def oxygenBands (last : ℕ) (T : List (String × Col)) : Bool :=
  match T.lookup "f", T.lookup "w300" with
  | some f, some w => decide (w.digits.length = f.digits.length) && decide (colRat f 0 = 1187503 / 10000) &&
      (List.range f.digits.length).all fun k =>
        (k == 0 || (decide (k ≤ last) && decide (50 < colRat f k) && decide (colRat f k < 70)) ||
          (decide (last < k) && decide (230 < colRat f k))) &&
        decide (6 / 10 < colRat w k) && decide (colRat w k < 28 / 10)
  | _, _ => false

set_option maxRecDepth 10000 in
theorem oxygenGroups_bands : ∀ g ∈ oxygenGroups, oxygenBands (if g.1 ∈ ["R98", "R03"] then 33 else 37) g.2 = true := by
  decide +kernel

/-- **C87.** In every oxygen list the first line is the isolated one at 118.7503 GHz; lines 1 to 37 (1 to 33 in R98 and
R03) are those of the band between 50 and 70 GHz, and all later ones lie above 230 GHz. -/
theorem C87_oxygen (hF : oxygenFile m = some F) :
    ∃ (n : ℕ) (f w : Val), F "len(f)" = (some fun _ => (n : ℝ)) ∧ F "f" = some f ∧ F "w300" = some w ∧ 0 < n ∧
      f 0 = 118.7503 ∧
      ∀ i < n, (0 < i → ((i ≤ if m ∈ ["R98", "R03"] then 33 else 37) ↔ 50 < f i ∧ f i < 70) ∧
        ((if m ∈ ["R98", "R03"] then 33 else 37) < i → 230 < f i)) ∧ 0.6 < w i ∧ w i < 2.8 := by
  obtain ⟨T, hT, rfl⟩ := oxygenFile_some hF
  have h := oxygenGroups_bands _ hT
  have hrow : ∀ g ∈ oxygenGroups, 0 < ((g.2.lookup "f").map fun c => c.digits.length).getD 0 := by decide +kernel
  have hrow := hrow _ hT
  generalize (if m ∈ ["R98", "R03"] then 33 else 37) = last at h ⊢
  unfold oxygenBands at h
  cases hf : T.lookup "f" with
  | none => simp [hf] at h
  | some f =>
  cases hw : T.lookup "w300" with
  | none => simp [hf, hw] at h
  | some w =>
  rw [hf, hw] at h
  simp only [Bool.and_eq_true, decide_eq_true_eq, List.all_eq_true, List.mem_range, Bool.or_eq_true, beq_iff_eq] at h
  obtain ⟨⟨hl, h0⟩, h⟩ := h
  refine ⟨f.digits.length, f.val, w.val, by simp, by simp [oxygenAssign, hf], by simp [oxygenAssign, hw],
    by simpa [hf] using hrow, ?_, fun i hi => ?_⟩
  · rw [colRat_val, h0]; norm_num
  obtain ⟨⟨h1, h2⟩, h3⟩ := h i hi
  rw [colRat_val, colRat_val]
  have c2 : ((6 / 10 : ℚ) : ℝ) < colRat w i := by exact_mod_cast h2
  have c3 : (colRat w i : ℝ) < ((28 / 10 : ℚ) : ℝ) := by exact_mod_cast h3
  push_cast at c2 c3
  refine ⟨fun h0 => ?_, by norm_num at c2 ⊢; exact c2, by norm_num at c3 ⊢; exact c3⟩
  rcases h1 with (h1 | ⟨⟨h1, a⟩, b⟩) | ⟨h1, a⟩
  · omega
  · have a' : (50 : ℝ) < colRat f i := by exact_mod_cast a
    have b' : (colRat f i : ℝ) < 70 := by exact_mod_cast b
    exact ⟨⟨fun _ => ⟨a', b'⟩, fun _ => h1⟩, fun h => by omega⟩
  · have a' : (230 : ℝ) < colRat f i := by exact_mod_cast a
    exact ⟨⟨fun h => by omega, fun h => by linarith [h.2]⟩, fun _ => a'⟩

/-! The lists exist. -/

example : (waterFile "R24").isSome ∧ isSD "R24" = true := by
  constructor
  · rw [C87_complete]; decide +kernel
  · decide +kernel

example : ∃ F, waterFile "R98" = some F := ⟨_, rfl⟩
example : ∃ F, oxygenFile "R24" = some F := ⟨_, rfl⟩
example : ∃ F, ozoneFile "R23" = some F := ⟨_, rfl⟩

end Verif.Props
