import Verif.Lemmas.WaterSum
import Verif.Lemmas.ErrorFn

/-!
# The speed-dependent water vapour models give finite absorption
-/

namespace Verif.Lemmas

open Verif.Model Verif.Py Verif.Spec

theorem localLine_some {w : ℝ} (hw : 0 < w) (d : ℝ) : ∃ c, localLine w d = some c := by
  unfold localLine
  rw [npDiv_of_ne (by positivity)]
  exact ⟨_, rfl⟩

theorem sdShape_some (w0 : ℝ) {w2 : ℝ} (hw : 0 < w2) (d2 df : ℝ) : ∃ c, sdShape w0 w2 d2 df = some c := by
  have hne : (⟨w2, -d2⟩ : ℂ) ≠ 0 := fun h => hw.ne' (congrArg Complex.re h)
  unfold sdShape
  simp only [cDiv, if_neg hne, bind, Option.bind]
  obtain ⟨w, hw⟩ := dcerror_some
    (-(cSqrt ((⟨w0 - 1.5 * w2, df + 1.5 * d2⟩ : ℂ) / ⟨w2, -d2⟩)).im)
    (cSqrt ((⟨w0 - 1.5 * w2, df + 1.5 * d2⟩ : ℂ) / ⟨w2, -d2⟩)).re
  rw [hw]
  exact ⟨_, rfl⟩

theorem sdLine_some (f : ℝ) {fl : ℝ} (hfl : fl ≠ 0) (shift : ℝ) {w0 : ℝ} (hw : 0 < w0) (w2 d2 s : ℝ) :
    ∃ c, sdLine f fl shift w0 w2 d2 s = some c := by
  unfold sdLine
  simp only
  obtain ⟨r0, h0⟩ : ∃ r, (if 0 < w2 ∧ |f - fl - shift| < 10 * w0 then (sdShape w0 w2 d2 (f - fl - shift)).map
      fun c => c.re - w0 / (562500.0 + w0 ^ 2)
    else if |f - fl - shift| < 750.0 then localLine w0 (f - fl - shift) else some 0 : Option ℝ) = some r := by
    by_cases h : 0 < w2 ∧ |f - fl - shift| < 10 * w0
    · rw [if_pos h]
      obtain ⟨c, hc⟩ := sdShape_some w0 h.1 d2 (f - fl - shift)
      rw [hc]; exact ⟨_, rfl⟩
    · rw [if_neg h]
      split_ifs
      · exact localLine_some hw _
      · exact ⟨_, rfl⟩
  obtain ⟨r1, h1⟩ : ∃ r, (if |f + fl + shift| < 750.0 then localLine w0 (f + fl + shift) else some 0 : Option ℝ)
      = some r := by
    split_ifs
    · exact localLine_some hw _
    · exact ⟨_, rfl⟩
  rw [h0, h1, npDiv_of_ne hfl]
  exact ⟨_, rfl⟩

theorem sumLines_total {n : ℕ} {g : ℕ → Option ℝ} (hg : ∀ i < n, ∃ c, g i = some c) : ∃ c, sumLines n g = some c := by
  have hc : ∀ i, ∃ c, i < n → g i = some c := by
    intro i
    by_cases hi : i < n
    · obtain ⟨c, hc⟩ := hg i hi; exact ⟨c, fun _ => hc⟩
    · exact ⟨0, fun h => absurd h hi⟩
  choose c hc using hc
  exact ⟨_, sumLines_some fun i hi => hc i hi⟩

theorem waterSumSD_some {m : String} (hm : isSD m = true) {F : LineList} (hF : waterFile m = some F) (old : LineList)
    {A : WaterAir} (f : ℝ) (ht : 0 < A.t) (hv : 0 < A.pvap) (hd : 0 ≤ A.pda) :
    ∃ s, waterSumSD m (reloadLL F old) A f = .ok (some s) := by
  obtain ⟨G⟩ := goodLines_of_file hF old
  have hx (a : String) (ha : a ∈ ["sh", "xh", "shs", "xhs", "aair", "aself", "w2", "w2s"]) :
      ∃ v, attr (reloadLL F old) a = .ok v := by
    obtain ⟨v, -, hv⟩ := file_reads hF old a (by
      simp only [List.mem_cons, List.not_mem_nil, or_false] at ha
      simp only [waterReads, hm, or_true, if_true, List.mem_append, List.mem_cons, List.not_mem_nil, or_false]
      tauto)
    exact ⟨v, attr_some hv⟩
  have h7 (a : String) (ha : a ∈ ["xw2", "xw2s", "d2", "d2s"]) :
      ∃ v, (if m ∈ newSD then attr (reloadLL F old) a else (.ok fun _ => 0 : Except PyErr Val)) = .ok v := by
    split_ifs with hm
    · obtain ⟨v, -, hv⟩ := file_reads hF old a (by simp only [waterReads, hm, if_true, List.mem_append]; tauto)
      exact ⟨v, attr_some hv⟩
    · exact ⟨_, rfl⟩
  have h8 (a : String) (ha : a ∈ ["d2air", "d2self"]) :
      ∃ v, (if m = "R20SD" then attr (reloadLL F old) a else (.ok fun _ => 0 : Except PyErr Val)) = .ok v := by
    split_ifs with hm
    · obtain ⟨v, -, hv⟩ := file_reads hF old a (by simp only [waterReads, hm, if_true, List.mem_append]; tauto)
      exact ⟨v, attr_some hv⟩
    · exact ⟨_, rfl⟩
  obtain ⟨sh, e1⟩ := hx "sh" (by simp)
  obtain ⟨xh, e2⟩ := hx "xh" (by simp)
  obtain ⟨shs, e3⟩ := hx "shs" (by simp)
  obtain ⟨xhs, e4⟩ := hx "xhs" (by simp)
  obtain ⟨aair, e5⟩ := hx "aair" (by simp)
  obtain ⟨aself, e6⟩ := hx "aself" (by simp)
  obtain ⟨w2, e7⟩ := hx "w2" (by simp)
  obtain ⟨w2s, e8⟩ := hx "w2s" (by simp)
  obtain ⟨xw2, e9⟩ := h7 "xw2" (by simp)
  obtain ⟨xw2s, e10⟩ := h7 "xw2s" (by simp)
  obtain ⟨d2, e11⟩ := h7 "d2" (by simp)
  obtain ⟨d2s, e12⟩ := h7 "d2s" (by simp)
  obtain ⟨d2air, e13⟩ := h8 "d2air" (by simp)
  obtain ⟨d2self, e14⟩ := h8 "d2self" (by simp)
  unfold waterSumSD
  simp only [attr_some G.hn, attr_some G.hfl, attr_some G.hs1, attr_some G.hb2, attr_some G.hw0, attr_some G.hx,
    attr_some G.hw0s, attr_some G.hxs, attr_some G.hreftline, bind, Except.bind, pure, Except.pure,
    numLines_nat, e1, e2, e3, e4, e5, e6, e7, e8, e9, e10, e11, e12, e13, e14]
  have hti : 0 < G.reftline 0 / A.t := div_pos G.preft.1 ht
  simp only [Except.ok.injEq]
  apply sumLines_total
  intro i hi
  obtain ⟨h1, h2, h3, h4⟩ := G.pos i hi
  simp only [fpow_of_pos hti, npLog_of_pos hti, Option.bind]
  exact sdLine_some f h1.ne' _ (by positivity) _ _ _

end Verif.Lemmas
