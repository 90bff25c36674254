import Verif.Props.Ozone
import Verif.Props.ErrorFn

/-!
# Ozone absorption of R22 in closed form (C38)
-/

namespace Verif.Props

open Verif.Model Verif.Py Verif.Lemmas Verif.Spec

/-- What one ozone line contributes in R22: Voigt profile through the rational approximation of the error function;
`β` is the Doppler width. -/
noncomputable def o3VoigtLine (fl s1 b w x t p f : ℝ) : ℝ :=
  let β := 0.62065e-7 * fl * √t
  s1 * Real.exp (b * (1 - 296 / t)) * (hui ⟨w * p * (296 / t) ^ x / β, (f - fl) / β⟩).re / β

/-- C38: R22 returns the density times the sum over exactly the lines at most 1 GHz away, for every pressure and
temperature. -/
theorem C38_window_R22 {F : LineList} (hF : ozoneFile "R22" = some F)
    (old : LineList) {t p : ℝ} (ht : 0 < t) (hp : 0 ≤ p) (f d : ℝ) :
    ∃ (n : ℕ) (fl s1 b w x : Val), F "len(fl)" = some (fun _ => (n : ℝ)) ∧ F "fl" = some fl ∧ F "s1" = some s1 ∧
      F "b" = some b ∧ F "w" = some w ∧ F "x" = some x ∧
      o3Absorption "R22" (reloadLL F old) t p f d = .ok (some (0.56419e-10 * d * (1 - Real.exp (-1008 / t)) *
        (296 / t) ^ (2.5 : ℝ) * ∑ k ∈ Finset.range n,
          if |fl k - f| ≤ 1 then o3VoigtLine (fl k) (s1 k) (b k) (w k) (x k) t p f else 0)) := by
  obtain ⟨G⟩ := goodO3_of_file hF old
  have hF' (a : String) (ha : a ∈ ozoneReads) {v : Val} (h : reloadLL F old a = some v) : F a = some v := by
    obtain ⟨u, h1, h2⟩ := ozoneFile_reads hF old a ha
    rw [h1, ← h2, h]
  refine ⟨G.n, G.fl, G.s1, G.b, G.w, G.x, hF' _ (by decide) G.hn, hF' _ (by decide) G.hfl, hF' _ (by decide) G.hs1,
    hF' _ (by decide) G.hb, hF' _ (by decide) G.hw, hF' _ (by decide) G.hx, ?_⟩
  have hti : 0 < 296 / t := by positivity
  rw [o3_eval G ht (g := fun k => o3VoigtLine (G.fl k) (G.s1 k) (G.b k) (G.w k) (G.x k) t p f) fun k hk _ => ?_]
  · simp
  · rw [if_pos (by decide)]
    obtain ⟨_, h2, _, _, h5, _⟩ := G.pos k hk
    have hfl : 0 < G.fl k := by linarith
    have hw : 0 < G.w k := by norm_num at h2 ⊢; linarith
    have hs : 0 < √t := Real.sqrt_pos.2 ht
    have hb : 0 < 0.62065e-7 * G.fl k * √t := by positivity
    have hx : 0 < (296 / t) ^ G.x k := Real.rpow_pos_of_pos hti _
    unfold o3Voigt o3VoigtLine
    simp only [fpow_of_pos hti, npSqrt, if_pos ht.le, npDiv_of_ne hb.ne', Option.bind_eq_bind, Option.bind_some]
    rw [dcerror_upper _ (by positivity)]
    simp only [Option.bind_some, Option.some_inj]
    rw [show ∀ β : ℝ, -((G.fl k - f) / β) = (f - G.fl k) / β from fun β => by rw [← neg_div, neg_sub]]
    norm_num

example : ∃ F a, ozoneFile "R22" = some F ∧ o3Absorption "R22" (reloadLL F fun _ => none) 250 10 110 1e18 = .ok (some a) := by
  obtain ⟨F, hF⟩ := Option.isSome_iff_exists.1 ((C38_names "R22").2 (by simp))
  obtain ⟨_, _, _, _, _, _, -, -, -, -, -, -, h⟩ := C38_window_R22 hF (fun _ => none) (t := 250) (p := 10) (by norm_num)
    (by norm_num) 110 1e18
  exact ⟨F, _, hF, h⟩

end Verif.Props
