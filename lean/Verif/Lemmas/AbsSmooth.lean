import Verif.Lemmas.AbsContinuous
import Mathlib.Analysis.SpecialFunctions.Pow.Deriv
import Mathlib.Analysis.SpecialFunctions.Log.Deriv

/-!
# Absorption depends smoothly on the state of the air

The statements of `AbsContinuous` for twice continuously differentiable functions, away from the cut-offs.
-/

namespace Verif.Lemmas

open Verif.Model Verif.Py Verif.Spec Real Set

variable {K : Set ℝ} {T pd pv : ℝ → ℝ}

theorem lorentz_smoothOn {w d : ℝ → ℝ} (hw : ContDiffOn ℝ 2 w K) (hd : ContDiffOn ℝ 2 d K) (h : ∀ u ∈ K, 0 < w u) :
    ContDiffOn ℝ 2 (fun u => lorentz (w u) (d u)) K := by
  unfold lorentz
  refine hw.div ((hd.pow 2).add (hw.pow 2)) fun u hu => ?_
  have := h u hu
  positivity

/-- A function clipped at `0` is smooth where it does not vanish. -/
theorem clip_smoothOn {g : ℝ → ℝ} (hg : ContDiffOn ℝ 2 g K) (h : ∀ u ∈ K, g u ≠ 0) :
    ContDiffOn ℝ 2 (fun u => max 0 (g u)) K := by
  intro u hu
  have hc : Filter.Tendsto g (nhdsWithin u K) (nhds (g u)) := (hg.continuousOn u hu)
  rcases (h u hu).lt_or_gt with h0 | h0
  · refine (contDiffWithinAt_const (c := (0 : ℝ))).congr_of_eventuallyEq ?_ (max_eq_left h0.le)
    filter_upwards [hc.eventually (gt_mem_nhds h0)] with v hv using max_eq_left hv.le
  · refine (hg u hu).congr_of_eventuallyEq ?_ (max_eq_right h0.le)
    filter_upwards [hc.eventually (lt_mem_nhds h0)] with v hv using max_eq_right hv.le

/-- Off the cut-off the profile of a line of positive width is either inside or outside of the window. -/
theorem lorentz_cutoff {w d : ℝ} (hw : 0 < w) (hd : |d| ≠ 750) : lorentz w d - lorentz w 750 ≠ 0 := by
  unfold lorentz
  intro h
  have e : w / (d ^ 2 + w ^ 2) = w / (750 ^ 2 + w ^ 2) := sub_eq_zero.1 h
  have p1 : 0 < d ^ 2 + w ^ 2 := by positivity
  have p2 : 0 < 750 ^ 2 + w ^ 2 := by positivity
  rw [div_eq_div_iff p1.ne' p2.ne'] at e
  have e' := mul_left_cancel₀ hw.ne' e
  have : d ^ 2 = 750 ^ 2 := by linarith
  have := sq_eq_sq_iff_abs_eq_abs d 750 |>.1 this
  rw [abs_of_pos (by norm_num : (0 : ℝ) < 750)] at this
  exact hd this

theorem localProfile_smoothOn {w d : ℝ → ℝ} (hw : ContDiffOn ℝ 2 w K) (hd : ContDiffOn ℝ 2 d K)
    (h : ∀ u ∈ K, 0 < w u) (hc : ∀ u ∈ K, |d u| ≠ 750) : ContDiffOn ℝ 2 (fun u => localProfile (w u) (d u)) K := by
  unfold localProfile
  exact clip_smoothOn ((lorentz_smoothOn hw hd h).sub (lorentz_smoothOn hw contDiffOn_const h))
    fun u hu => lorentz_cutoff (h u hu) (hc u hu)

theorem power_smoothOn {θ : ℝ → ℝ} (hθ : ContDiffOn ℝ 2 θ K) (h : ∀ u ∈ K, 0 < θ u) (x : ℝ) :
    ContDiffOn ℝ 2 (fun u => θ u ^ x) K := hθ.rpow_const_of_ne fun u hu => (h u hu).ne'

theorem log_smoothOn {θ : ℝ → ℝ} (hθ : ContDiffOn ℝ 2 θ K) (h : ∀ u ∈ K, 0 < θ u) :
    ContDiffOn ℝ 2 (fun u => log (θ u)) K := hθ.log fun u hu => (h u hu).ne'

theorem halfWidth_smoothOn (c : String → ℕ → ℝ) {θ : ℝ → ℝ} (hθ : ContDiffOn ℝ 2 θ K) (h : ∀ u ∈ K, 0 < θ u)
    (hd : ContDiffOn ℝ 2 pd K) (hv : ContDiffOn ℝ 2 pv K) (i : ℕ) :
    ContDiffOn ℝ 2 (fun u => halfWidth c (θ u) (pd u) (pv u) i) K := by
  unfold halfWidth
  have p := power_smoothOn hθ h
  exact ((contDiffOn_const.mul (p _)).mul hd).add ((contDiffOn_const.mul (p _)).mul hv)

theorem lineShift_smoothOn (m : String) (c : String → ℕ → ℝ) {θ : ℝ → ℝ} (hθ : ContDiffOn ℝ 2 θ K)
    (h : ∀ u ∈ K, 0 < θ u) (hd : ContDiffOn ℝ 2 pd K) (hv : ContDiffOn ℝ 2 pv K) (i : ℕ) :
    ContDiffOn ℝ 2 (fun u => lineShift m c (θ u) (pd u) (pv u) i) K := by
  have p := power_smoothOn hθ h
  have l := log_smoothOn hθ h
  unfold lineShift
  split_ifs
  · exact contDiffOn_const
  · exact contDiffOn_const.mul (halfWidth_smoothOn c hθ h hd hv i)
  · exact contDiffOn_const.mul ((contDiffOn_const.mul (p _)).mul hd)
  · exact ((contDiffOn_const.mul (p _)).mul hd).add ((contDiffOn_const.mul (p _)).mul hv)
  · exact (((contDiffOn_const.mul (p _)).mul (contDiffOn_const.sub (contDiffOn_const.mul l))).mul hd).add
      (((contDiffOn_const.mul (p _)).mul (contDiffOn_const.sub (contDiffOn_const.mul l))).mul hv)

/-- The frequency is not exactly at the edge, `750` GHz from a line, of the window in which the line is counted. -/
def OffCutoff (m : String) (c : String → ℕ → ℝ) (n : ℕ) (T pd pv f : ℝ) : Prop :=
  ∀ i < n, |f - (c "fl" i + lineShift m c (c "reftline" 0 / T) pd pv i)| ≠ 750
    ∧ |f + (c "fl" i + lineShift m c (c "reftline" 0 / T) pd pv i)| ≠ 750

theorem lineSum_smoothOn {m : String} (hm : m ∈ plainWater) {ll : LineList} {c : String → ℕ → ℝ} {n : ℕ}
    (C : Columns m ll c n) (f : ℝ) (hT : ContDiffOn ℝ 2 T K) (hT0 : ∀ u ∈ K, 0 < T u) (hd : ContDiffOn ℝ 2 pd K)
    (hv : ContDiffOn ℝ 2 pv K) (hd0 : ∀ u ∈ K, 0 ≤ pd u) (hv0 : ∀ u ∈ K, 0 ≤ pv u) (hs : ∀ u ∈ K, 0 < pd u + pv u)
    (hc : ∀ u ∈ K, OffCutoff m c n (T u) (pd u) (pv u) f) :
    ContDiffOn ℝ 2 (fun u => lineSum m c n (T u) (pd u) (pv u) f) K := by
  have hθ : ContDiffOn ℝ 2 (fun u => c "reftline" 0 / T u) K := contDiffOn_const.div hT fun u hu => (hT0 u hu).ne'
  have hθ0 : ∀ u ∈ K, 0 < c "reftline" 0 / T u := fun u hu => div_pos C.reft.1 (hT0 u hu)
  unfold lineSum
  refine ContDiffOn.sum fun i hi => ?_
  obtain ⟨h1, h2, h3⟩ := C.pos i (Finset.mem_range.1 hi)
  simp only [resonances_plain hm]
  have hw := halfWidth_smoothOn c hθ hθ0 hd hv i
  have hl := lineShift_smoothOn m c hθ hθ0 hd hv i
  have hw0 : ∀ u ∈ K, 0 < halfWidth c (c "reftline" 0 / T u) (pd u) (pv u) i := fun u hu => by
    unfold halfWidth
    have p1 := rpow_pos_of_pos (hθ0 u hu) (c "x" i)
    have p2 := rpow_pos_of_pos (hθ0 u hu) (c "xs" i)
    rcases (hd0 u hu).eq_or_lt with h | h
    · have : 0 < pv u := by have := hs u hu; rw [← h] at this; linarith
      rw [← h]; positivity
    · have := hv0 u hu; positivity
  refine ContDiffOn.mul (ContDiffOn.mul ?_ contDiffOn_const) (.add ?_ ?_)
  · unfold strength
    exact (contDiffOn_const.mul (power_smoothOn hθ hθ0 _)).mul
      ((contDiffOn_const.mul (contDiffOn_const.sub hθ)).exp)
  · exact localProfile_smoothOn hw (contDiffOn_const.sub (contDiffOn_const.add hl)) hw0
      fun u hu => (hc u hu i (Finset.mem_range.1 hi)).1
  · exact localProfile_smoothOn hw (contDiffOn_const.add (contDiffOn_const.add hl)) hw0
      fun u hu => (hc u hu i (Finset.mem_range.1 hi)).2

theorem continuum_smoothOn (cf xf cs xs f : ℝ) {θ : ℝ → ℝ} (hθ : ContDiffOn ℝ 2 θ K) (h : ∀ u ∈ K, 0 < θ u)
    (hd : ContDiffOn ℝ 2 pd K) (hv : ContDiffOn ℝ 2 pv K) :
    ContDiffOn ℝ 2 (fun u => continuum cf xf cs xs (θ u) (pd u) (pv u) f) K := by
  unfold continuum
  have p := power_smoothOn hθ h
  exact ((((contDiffOn_const.mul (p _)).mul hd).add ((contDiffOn_const.mul (p _)).mul hv)).mul hv).mul
    contDiffOn_const

theorem mixedLine_smoothOn {w g y c : ℝ → ℝ} (f : ℝ) (hw : ContDiffOn ℝ 2 w K) (hg : ContDiffOn ℝ 2 g K)
    (hy : ContDiffOn ℝ 2 y K) (hc : ContDiffOn ℝ 2 c K) (hw0 : ∀ u ∈ K, 0 < w u) :
    ContDiffOn ℝ 2 (fun u => mixedLine (w u) (g u) (y u) (c u) f) K := by
  unfold mixedLine
  refine .add (.div ?_ ?_ fun u hu => ?_) (.div ?_ ?_ fun u hu => ?_)
  · exact (hw.mul hg).add (hy.mul (contDiffOn_const.sub hc))
  · exact ((contDiffOn_const.sub hc).pow 2).add (hw.pow 2)
  · have := hw0 u hu; positivity
  · exact (hw.mul hg).sub (hy.mul (contDiffOn_const.add hc))
  · exact ((contDiffOn_const.add hc).pow 2).add (hw.pow 2)
  · have := hw0 u hu; positivity

theorem debye_smoothOn (s f : ℝ) {θ w : ℝ → ℝ} (hθ : ContDiffOn ℝ 2 θ K) (h : ∀ u ∈ K, 0 < θ u)
    (hw : ContDiffOn ℝ 2 w K) (hw0 : ∀ u ∈ K, 0 < w u) : ContDiffOn ℝ 2 (fun u => debye s (θ u) (w u) f) K := by
  unfold debye
  refine .div (contDiffOn_const.mul hw) (hθ.mul (contDiffOn_const.add (hw.pow 2))) fun u hu => ?_
  have := hw0 u hu
  have := h u hu
  positivity

theorem broadening_smoothOn (m : String) (x : ℝ) {θ : ℝ → ℝ} (hθ : ContDiffOn ℝ 2 θ K) (h : ∀ u ∈ K, 0 < θ u)
    (hd : ContDiffOn ℝ 2 pd K) (hv : ContDiffOn ℝ 2 pv K) :
    ContDiffOn ℝ 2 (fun u => broadening m x (θ u) (pd u) (pv u)) K := by
  have p := power_smoothOn hθ h
  unfold broadening
  split_ifs
  · exact ((hd.mul hθ).add ((contDiffOn_const.mul hv).mul hθ)).div_const _
  · exact ((hd.mul (p _)).add ((contDiffOn_const.mul hv).mul hθ)).div_const _
  · exact ((hd.mul (p _)).add ((contDiffOn_const.mul hv).mul hθ)).div_const _
  · exact ((hd.mul (p _)).add ((contDiffOn_const.mul hv).mul hθ)).div_const _

theorem oxyLines_smoothOn (m : String) {ll : LineList} {c : String → ℕ → ℝ} {n : ℕ} (C : OxyColumns m ll c n) (f : ℝ)
    {θ P d : ℝ → ℝ} (hθ : ContDiffOn ℝ 2 θ K) (h : ∀ u ∈ K, 0 < θ u) (hP : ContDiffOn ℝ 2 P K) (hd : ContDiffOn ℝ 2 d K)
    (hd0 : ∀ u ∈ K, 0 < d u) : ContDiffOn ℝ 2 (fun u => oxyLines m c n (θ u) (P u) (d u) f) K := by
  have p := power_smoothOn hθ h
  have lin (a b : ℝ) : ContDiffOn ℝ 2 (fun u => a + b * (θ u - 1)) K :=
    contDiffOn_const.add (contDiffOn_const.mul (hθ.sub contDiffOn_const))
  unfold oxyLines
  refine ContDiffOn.sum fun k hk => ?_
  obtain ⟨h1, h2, h3⟩ := C.pos k (Finset.mem_range.1 hk)
  refine ContDiffOn.mul (ContDiffOn.mul ?_ contDiffOn_const) (mixedLine_smoothOn f ?_ ?_ ?_ ?_ ?_)
  · unfold oxyStrength
    exact contDiffOn_const.mul ((contDiffOn_const.mul (contDiffOn_const.sub hθ)).exp)
  · exact contDiffOn_const.mul hd
  · unfold mixing2
    split_ifs
    · exact contDiffOn_const.add ((hd.pow 2).mul (lin _ _))
    · exact contDiffOn_const
  · unfold mixing
    split_ifs
    · exact ((hP.div_const _).mul (p _)).mul (lin _ _)
    · exact hd.mul (lin _ _)
    · exact hd.mul (lin _ _)
  · unfold oxyCentre
    split_ifs
    · exact contDiffOn_const.add ((hd.pow 2).mul (lin _ _))
    · exact contDiffOn_const
  · exact fun u hu => mul_pos h3 (hd0 u hu)

theorem oxyFinish_smoothOn (m : String) {a : ℝ → ℝ} (ha : ContDiffOn ℝ 2 a K)
    (h : ∀ u ∈ K, a u ≠ 0) : ContDiffOn ℝ 2 (fun u => oxyFinish m (a u)) K := by
  unfold oxyFinish
  split_ifs
  · exact ha
  · exact contDiffOn_const.mul (clip_smoothOn ha h)
  · exact clip_smoothOn ha h

theorem eswat_smoothOn (hT : ContDiffOn ℝ 2 T K) (hT0 : ∀ u ∈ K, 0 < T u) : ContDiffOn ℝ 2 (fun u => eswat (T u)) K := by
  have h1 : ContDiffOn ℝ 2 (fun u => (373.16 : ℝ) / T u) K := contDiffOn_const.div hT fun u hu => (hT0 u hu).ne'
  have h0 : ∀ u ∈ K, 0 < (373.16 : ℝ) / T u := fun u hu => div_pos (by norm_num) (hT0 u hu)
  have h2 : ContDiffOn ℝ 2 (fun u => (1.0 : ℝ) / (373.16 / T u)) K := contDiffOn_const.div h1 fun u hu => (h0 u hu).ne'
  have hl : ContDiffOn ℝ 2 (fun u => logb 10 ((373.16 : ℝ) / T u)) K := by
    unfold logb
    exact (h1.log fun u hu => (h0 u hu).ne').div_const _
  have pw {a : ℝ → ℝ} (ha : ContDiffOn ℝ 2 a K) : ContDiffOn ℝ 2 (fun u => (10.0 : ℝ) ^ a u) K :=
    contDiffOn_const.rpow ha fun _ _ => (by norm_num)
  unfold eswat
  simp only
  refine pw ((((contDiffOn_const.mul (h1.sub contDiffOn_const)).add (contDiffOn_const.mul hl)).sub
    (contDiffOn_const.mul ((pw (contDiffOn_const.mul (contDiffOn_const.sub h2))).sub contDiffOn_const))).add
    (contDiffOn_const.mul ((pw (contDiffOn_const.mul (h1.sub contDiffOn_const))).sub contDiffOn_const))
    |>.add contDiffOn_const)

theorem n2_smoothOn {m : String} {f : ℝ} {c : ℝ × ℝ × ℝ × ℝ} {p : ℝ → ℝ} (hT : ContDiffOn ℝ 2 T K)
    (hT0 : ∀ u ∈ K, 0 < T u) (hp : ContDiffOn ℝ 2 p K) :
    ContDiffOn ℝ 2 (fun u => c.2.2.1 * if m = "MWL24" then n2Mwl24 (T u) (p u) f * 1e5 else
      c.1 * c.2.2.2 * p u * p u * f * f * (300.0 / T u) ^ c.2.1) K := by
  have hθ (a : ℝ) : ContDiffOn ℝ 2 (fun u => a / T u) K := contDiffOn_const.div hT fun u hu => (hT0 u hu).ne'
  have h0 : ∀ u ∈ K, 0 < (300.0 : ℝ) / T u := fun u hu => div_pos (by norm_num) (hT0 u hu)
  have h0' : ∀ u ∈ K, 0 < (300 : ℝ) / T u := fun u hu => div_pos (by norm_num) (hT0 u hu)
  refine contDiffOn_const.mul ?_
  split_ifs
  · refine ContDiffOn.mul ?_ contDiffOn_const
    unfold n2Mwl24
    simp only
    refine .mul (.mul (.mul (contDiffOn_const.mul ?_) (.div_const (.sub ?_ ?_) _)) ((hp.mul contDiffOn_const).pow 2))
      contDiffOn_const
    · exact (hθ 300).rpow (contDiffOn_const.add (contDiffOn_const.mul (log_smoothOn (hθ 300) h0')))
        fun u hu => (h0' u hu).ne'
    · exact (contDiffOn_const.div (contDiffOn_const.mul hT)
        fun u hu => (mul_pos (by norm_num) (hT0 u hu)).ne').exp
    · exact contDiffOn_const.add (contDiffOn_const.div (contDiffOn_const.mul hT)
        fun u hu => (mul_pos (by norm_num) (hT0 u hu)).ne')
  · exact ((((contDiffOn_const.mul hp).mul hp).mul contDiffOn_const).mul contDiffOn_const).mul
      (power_smoothOn (hθ 300.0) h0 _)

end Verif.Lemmas
