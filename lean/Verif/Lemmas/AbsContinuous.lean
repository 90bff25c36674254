import Verif.Lemmas.WaterFormula
import Verif.Lemmas.OxygenFormula
import Verif.Model.Vapor
import Verif.Model.AbsNitrogen
import Mathlib.Analysis.SpecialFunctions.Pow.Continuity
import Mathlib.Analysis.SpecialFunctions.Log.Base

/-!
# Absorption depends continuously on the state of the air

For the closed formulas of the models without speed-dependent profiles: along any path through states of air given by
continuous functions of a parameter.
-/

namespace Verif.Lemmas

open Verif.Model Verif.Py Verif.Spec Real Set

variable {K : Set ℝ} {T pd pv : ℝ → ℝ}

theorem lorentz_continuousOn {w d : ℝ → ℝ} (hw : ContinuousOn w K) (hd : ContinuousOn d K) (h : ∀ u ∈ K, 0 < w u) :
    ContinuousOn (fun u => lorentz (w u) (d u)) K := by
  unfold lorentz
  refine hw.div ((hd.pow 2).add (hw.pow 2)) fun u hu => ?_
  have := h u hu
  positivity

theorem localProfile_continuousOn {w d : ℝ → ℝ} (hw : ContinuousOn w K) (hd : ContinuousOn d K)
    (h : ∀ u ∈ K, 0 < w u) : ContinuousOn (fun u => localProfile (w u) (d u)) K := by
  unfold localProfile
  exact continuousOn_const.sup ((lorentz_continuousOn hw hd h).sub (lorentz_continuousOn hw continuousOn_const h))

theorem power_continuousOn {θ : ℝ → ℝ} (hθ : ContinuousOn θ K) (h : ∀ u ∈ K, 0 < θ u) (x : ℝ) :
    ContinuousOn (fun u => θ u ^ x) K := hθ.rpow_const fun u hu => Or.inl (h u hu).ne'

theorem log_continuousOn {θ : ℝ → ℝ} (hθ : ContinuousOn θ K) (h : ∀ u ∈ K, 0 < θ u) :
    ContinuousOn (fun u => log (θ u)) K := hθ.log fun u hu => (h u hu).ne'

/-- The water vapour models without speed-dependent lines. -/
def plainWater : List String := ["R98", "R03", "R16", "R17", "R18", "R19", "R20"]

theorem halfWidth_continuousOn (c : String → ℕ → ℝ) {θ : ℝ → ℝ} (hθ : ContinuousOn θ K) (h : ∀ u ∈ K, 0 < θ u)
    (hd : ContinuousOn pd K) (hv : ContinuousOn pv K) (i : ℕ) :
    ContinuousOn (fun u => halfWidth c (θ u) (pd u) (pv u) i) K := by
  unfold halfWidth
  have p := power_continuousOn hθ h
  exact ((continuousOn_const.mul (p _)).mul hd).add ((continuousOn_const.mul (p _)).mul hv)

theorem lineShift_continuousOn (m : String) (c : String → ℕ → ℝ) {θ : ℝ → ℝ} (hθ : ContinuousOn θ K)
    (h : ∀ u ∈ K, 0 < θ u) (hd : ContinuousOn pd K) (hv : ContinuousOn pv K) (i : ℕ) :
    ContinuousOn (fun u => lineShift m c (θ u) (pd u) (pv u) i) K := by
  have p := power_continuousOn hθ h
  have l := log_continuousOn hθ h
  unfold lineShift
  split_ifs
  · exact continuousOn_const
  · exact continuousOn_const.mul (halfWidth_continuousOn c hθ h hd hv i)
  · exact continuousOn_const.mul ((continuousOn_const.mul (p _)).mul hd)
  · exact ((continuousOn_const.mul (p _)).mul hd).add ((continuousOn_const.mul (p _)).mul hv)
  · exact (((continuousOn_const.mul (p _)).mul (continuousOn_const.sub (continuousOn_const.mul l))).mul hd).add
      (((continuousOn_const.mul (p _)).mul (continuousOn_const.sub (continuousOn_const.mul l))).mul hv)

theorem resonances_plain {m : String} (hm : m ∈ plainWater) (c : String → ℕ → ℝ) (θ pd pv f : ℝ) (i : ℕ) :
    resonances m c θ pd pv f i = localProfile (halfWidth c θ pd pv i) (f - (c "fl" i + lineShift m c θ pd pv i))
      + localProfile (halfWidth c θ pd pv i) (f + (c "fl" i + lineShift m c θ pd pv i)) := by
  have hw : speedWidth m c θ pd pv i = 0 := by
    unfold speedWidth
    simp only [plainWater, List.mem_cons, List.not_mem_nil, or_false] at hm
    rcases hm with rfl | rfl | rfl | rfl | rfl | rfl | rfl <;> simp
  unfold resonances
  simp only [hw, lt_irrefl, false_and, if_false]

theorem lineSum_continuousOn {m : String} (hm : m ∈ plainWater) {ll : LineList} {c : String → ℕ → ℝ} {n : ℕ}
    (C : Columns m ll c n) (f : ℝ) (hT : ContinuousOn T K) (hT0 : ∀ u ∈ K, 0 < T u) (hd : ContinuousOn pd K)
    (hv : ContinuousOn pv K) (hd0 : ∀ u ∈ K, 0 ≤ pd u) (hv0 : ∀ u ∈ K, 0 ≤ pv u) (hs : ∀ u ∈ K, 0 < pd u + pv u) :
    ContinuousOn (fun u => lineSum m c n (T u) (pd u) (pv u) f) K := by
  have hθ : ContinuousOn (fun u => c "reftline" 0 / T u) K := continuousOn_const.div hT fun u hu => (hT0 u hu).ne'
  have hθ0 : ∀ u ∈ K, 0 < c "reftline" 0 / T u := fun u hu => div_pos C.reft.1 (hT0 u hu)
  unfold lineSum
  refine continuousOn_finsetSum _ fun i hi => ?_
  obtain ⟨h1, h2, h3⟩ := C.pos i (Finset.mem_range.1 hi)
  simp only [resonances_plain hm]
  have hw := halfWidth_continuousOn c hθ hθ0 hd hv i
  have hl := lineShift_continuousOn m c hθ hθ0 hd hv i
  have hw0 : ∀ u ∈ K, 0 < halfWidth c (c "reftline" 0 / T u) (pd u) (pv u) i := fun u hu => by
    unfold halfWidth
    have p1 := rpow_pos_of_pos (hθ0 u hu) (c "x" i)
    have p2 := rpow_pos_of_pos (hθ0 u hu) (c "xs" i)
    rcases (hd0 u hu).eq_or_lt with h | h
    · have : 0 < pv u := by have := hs u hu; rw [← h] at this; linarith
      rw [← h]; positivity
    · have := hv0 u hu; positivity
  refine ContinuousOn.mul (ContinuousOn.mul ?_ continuousOn_const) (.add ?_ ?_)
  · unfold strength
    exact (continuousOn_const.mul (power_continuousOn hθ hθ0 _)).mul
      ((continuousOn_const.mul (continuousOn_const.sub hθ)).rexp)
  · exact localProfile_continuousOn hw (continuousOn_const.sub (continuousOn_const.add hl)) hw0
  · exact localProfile_continuousOn hw (continuousOn_const.add (continuousOn_const.add hl)) hw0

theorem continuum_continuousOn (cf xf cs xs f : ℝ) {θ : ℝ → ℝ} (hθ : ContinuousOn θ K) (h : ∀ u ∈ K, 0 < θ u)
    (hd : ContinuousOn pd K) (hv : ContinuousOn pv K) :
    ContinuousOn (fun u => continuum cf xf cs xs (θ u) (pd u) (pv u) f) K := by
  unfold continuum
  have p := power_continuousOn hθ h
  exact ((((continuousOn_const.mul (p _)).mul hd).add ((continuousOn_const.mul (p _)).mul hv)).mul hv).mul
    continuousOn_const

theorem mixedLine_continuousOn {w g y c : ℝ → ℝ} (f : ℝ) (hw : ContinuousOn w K) (hg : ContinuousOn g K)
    (hy : ContinuousOn y K) (hc : ContinuousOn c K) (hw0 : ∀ u ∈ K, 0 < w u) :
    ContinuousOn (fun u => mixedLine (w u) (g u) (y u) (c u) f) K := by
  unfold mixedLine
  refine .add (.div ?_ ?_ fun u hu => ?_) (.div ?_ ?_ fun u hu => ?_)
  · exact (hw.mul hg).add (hy.mul (continuousOn_const.sub hc))
  · exact ((continuousOn_const.sub hc).pow 2).add (hw.pow 2)
  · have := hw0 u hu; positivity
  · exact (hw.mul hg).sub (hy.mul (continuousOn_const.add hc))
  · exact ((continuousOn_const.add hc).pow 2).add (hw.pow 2)
  · have := hw0 u hu; positivity

theorem debye_continuousOn (s f : ℝ) {θ w : ℝ → ℝ} (hθ : ContinuousOn θ K) (h : ∀ u ∈ K, 0 < θ u)
    (hw : ContinuousOn w K) (hw0 : ∀ u ∈ K, 0 < w u) : ContinuousOn (fun u => debye s (θ u) (w u) f) K := by
  unfold debye
  refine .div (continuousOn_const.mul hw) (hθ.mul (continuousOn_const.add (hw.pow 2))) fun u hu => ?_
  have := hw0 u hu
  have := h u hu
  positivity

theorem broadening_continuousOn (m : String) (x : ℝ) {θ : ℝ → ℝ} (hθ : ContinuousOn θ K) (h : ∀ u ∈ K, 0 < θ u)
    (hd : ContinuousOn pd K) (hv : ContinuousOn pv K) :
    ContinuousOn (fun u => broadening m x (θ u) (pd u) (pv u)) K := by
  have p := power_continuousOn hθ h
  unfold broadening
  split_ifs
  · exact ((hd.mul hθ).add ((continuousOn_const.mul hv).mul hθ)).div_const _
  · exact ((hd.mul (p _)).add ((continuousOn_const.mul hv).mul hθ)).div_const _
  · exact ((hd.mul (p _)).add ((continuousOn_const.mul hv).mul hθ)).div_const _
  · exact ((hd.mul (p _)).add ((continuousOn_const.mul hv).mul hθ)).div_const _

theorem oxyLines_continuousOn (m : String) {ll : LineList} {c : String → ℕ → ℝ} {n : ℕ} (C : OxyColumns m ll c n) (f : ℝ)
    {θ P d : ℝ → ℝ} (hθ : ContinuousOn θ K) (h : ∀ u ∈ K, 0 < θ u) (hP : ContinuousOn P K) (hd : ContinuousOn d K)
    (hd0 : ∀ u ∈ K, 0 < d u) : ContinuousOn (fun u => oxyLines m c n (θ u) (P u) (d u) f) K := by
  have p := power_continuousOn hθ h
  have lin (a b : ℝ) : ContinuousOn (fun u => a + b * (θ u - 1)) K :=
    continuousOn_const.add (continuousOn_const.mul (hθ.sub continuousOn_const))
  unfold oxyLines
  refine continuousOn_finsetSum _ fun k hk => ?_
  obtain ⟨h1, h2, h3⟩ := C.pos k (Finset.mem_range.1 hk)
  refine ContinuousOn.mul (ContinuousOn.mul ?_ continuousOn_const) (mixedLine_continuousOn f ?_ ?_ ?_ ?_ ?_)
  · unfold oxyStrength
    exact continuousOn_const.mul ((continuousOn_const.mul (continuousOn_const.sub hθ)).rexp)
  · exact continuousOn_const.mul hd
  · unfold mixing2
    split_ifs
    · exact continuousOn_const.add ((hd.pow 2).mul (lin _ _))
    · exact continuousOn_const
  · unfold mixing
    split_ifs
    · exact ((hP.div_const _).mul (p _)).mul (lin _ _)
    · exact hd.mul (lin _ _)
    · exact hd.mul (lin _ _)
  · unfold oxyCentre
    split_ifs
    · exact continuousOn_const.add ((hd.pow 2).mul (lin _ _))
    · exact continuousOn_const
  · exact fun u hu => mul_pos h3 (hd0 u hu)

theorem oxyFinish_continuousOn (m : String) {a : ℝ → ℝ} (ha : ContinuousOn a K) :
    ContinuousOn (fun u => oxyFinish m (a u)) K := by
  unfold oxyFinish
  split_ifs
  · exact ha
  · exact continuousOn_const.mul (continuousOn_const.sup ha)
  · exact continuousOn_const.sup ha

theorem eswat_continuousOn (hT : ContinuousOn T K) (hT0 : ∀ u ∈ K, 0 < T u) : ContinuousOn (fun u => eswat (T u)) K := by
  have h1 : ContinuousOn (fun u => (373.16 : ℝ) / T u) K := continuousOn_const.div hT fun u hu => (hT0 u hu).ne'
  have h0 : ∀ u ∈ K, 0 < (373.16 : ℝ) / T u := fun u hu => div_pos (by norm_num) (hT0 u hu)
  have h2 : ContinuousOn (fun u => (1.0 : ℝ) / (373.16 / T u)) K := continuousOn_const.div h1 fun u hu => (h0 u hu).ne'
  have hl : ContinuousOn (fun u => logb 10 ((373.16 : ℝ) / T u)) K := by
    unfold logb
    exact (h1.log fun u hu => (h0 u hu).ne').div_const _
  have pw {a : ℝ → ℝ} (ha : ContinuousOn a K) : ContinuousOn (fun u => (10.0 : ℝ) ^ a u) K :=
    continuousOn_const.rpow ha fun _ _ => Or.inl (by norm_num)
  unfold eswat
  simp only
  refine pw ((((continuousOn_const.mul (h1.sub continuousOn_const)).add (continuousOn_const.mul hl)).sub
    (continuousOn_const.mul ((pw (continuousOn_const.mul (continuousOn_const.sub h2))).sub continuousOn_const))).add
    (continuousOn_const.mul ((pw (continuousOn_const.mul (h1.sub continuousOn_const))).sub continuousOn_const))
    |>.add continuousOn_const)

theorem n2_continuousOn {m : String} {f : ℝ} {c : ℝ × ℝ × ℝ × ℝ} {p : ℝ → ℝ} (hT : ContinuousOn T K)
    (hT0 : ∀ u ∈ K, 0 < T u) (hp : ContinuousOn p K) :
    ContinuousOn (fun u => c.2.2.1 * if m = "MWL24" then n2Mwl24 (T u) (p u) f * 1e5 else
      c.1 * c.2.2.2 * p u * p u * f * f * (300.0 / T u) ^ c.2.1) K := by
  have hθ (a : ℝ) : ContinuousOn (fun u => a / T u) K := continuousOn_const.div hT fun u hu => (hT0 u hu).ne'
  have h0 : ∀ u ∈ K, 0 < (300.0 : ℝ) / T u := fun u hu => div_pos (by norm_num) (hT0 u hu)
  have h0' : ∀ u ∈ K, 0 < (300 : ℝ) / T u := fun u hu => div_pos (by norm_num) (hT0 u hu)
  refine continuousOn_const.mul ?_
  split_ifs
  · refine ContinuousOn.mul ?_ continuousOn_const
    unfold n2Mwl24
    simp only
    refine .mul (.mul (.mul (continuousOn_const.mul ?_) (.div_const (.sub ?_ ?_) _)) ((hp.mul continuousOn_const).pow 2))
      continuousOn_const
    · exact (hθ 300).rpow (continuousOn_const.add (continuousOn_const.mul (log_continuousOn (hθ 300) h0')))
        fun u hu => Or.inl (h0' u hu).ne'
    · exact (continuousOn_const.div (continuousOn_const.mul hT)
        fun u hu => (mul_pos (by norm_num) (hT0 u hu)).ne').rexp
    · exact continuousOn_const.add (continuousOn_const.div (continuousOn_const.mul hT)
        fun u hu => (mul_pos (by norm_num) (hT0 u hu)).ne')
  · exact ((((continuousOn_const.mul hp).mul hp).mul continuousOn_const).mul continuousOn_const).mul
      (power_continuousOn (hθ 300.0) h0 _)

end Verif.Lemmas
