import Verif.Lemmas.ErrorFn
import Verif.Spec.WaterFormula
import Mathlib.Analysis.SpecialFunctions.Pow.Complex
import Mathlib.Analysis.RCLike.Sqrt

/-!
# The speed-dependent shape is close to a Lorentz line

`z² g(z) = 1 + O(1/z²)` for `g = 2 (1 - √π z h(z))` with the rational function `h` of Hui et al., in the right half plane.
-/

namespace Verif.Lemmas

open Verif.Model Verif.Spec

/-- Value of a polynomial with real coefficients. -/
noncomputable def hornerC (z : ℂ) : List ℝ → ℂ
  | [] => 0
  | c :: l => c + z * hornerC z l

/-- The same for real numbers, with the sizes of the coefficients. -/
noncomputable def hornerSize (r : ℝ) : List ℝ → ℝ
  | [] => 0
  | c :: l => |c| + r * hornerSize r l

theorem hornerC_eq (x y : ℝ) (l : List ℝ) : hornerC ⟨y, -x⟩ l = ⟨(hornerRI x y l).1, (hornerRI x y l).2⟩ := by
  induction l with
  | nil => rfl
  | cons c l ih =>
    simp only [hornerC, hornerRI, ih]
    apply Complex.ext <;> simp [Complex.mul_re, Complex.mul_im] <;> ring

theorem hornerC_norm (x y : ℝ) (l : List ℝ) :
    ‖hornerC ⟨y, -x⟩ l‖ ^ 2 = (hornerRI x y l).1 ^ 2 + (hornerRI x y l).2 ^ 2 := by
  rw [hornerC_eq, Complex.sq_norm, Complex.normSq_apply]
  ring

theorem hornerC_le (z : ℂ) (l : List ℝ) : ‖hornerC z l‖ ≤ hornerSize ‖z‖ l := by
  induction l with
  | nil => simp [hornerC, hornerSize]
  | cons c l ih =>
    simp only [hornerC, hornerSize]
    refine (norm_add_le _ _).trans ?_
    rw [norm_mul, Complex.norm_real, Real.norm_eq_abs]
    gcongr

/-- Denominator of `h`, rounded. -/
noncomputable def lowQ : List ℝ := [613/5, 3527/10, 4573/10, 3487/10, 3407/20, 54, 262/25, 1]

/-- Minus the numerator of `z² (z² g(z) - 1)`, rounded. -/
noncomputable def lowM : List ℝ := [0, 0, 613/5, 3527/10, 2121/10, 1947/25, 313/20, 301/200]

/-- What rounding leaves out. -/
noncomputable def restQ : List ℝ := [158635477507/20000000000000, 15312555481779/500000000000000, 34478783897737/1000000000000000, 244857468487/62500000000000, 250113818217/62500000000000, -7093087059793/1000000000000000, -142885739601/1000000000000000, 0]

noncomputable def restN : List ℝ := [0, 0, -158635477507/20000000000000, -15312555481779/500000000000000, -18615236147037/1000000000000000, 88271066315495016527291232711/25000000000000000000000000000000, -1650139614264494934775925971/2000000000000000000000000000000, 3519419689404663048971026953/50000000000000000000000000000000, 10594759515752775304771529077/50000000000000000000000000000000, -234360930943016574359524167/50000000000000000000000000000000, 1978308852616321729485741/50000000000000000000000000000000, -526727693854447824369/10000000000000000000000000000000]

/-- `12.25 |lowQ|² - |lowM|²` expanded; `X` is the square of the imaginary part. -/
noncomputable def gapPoly (X y : ℝ) : ℝ :=
    (18412681/100 : ℝ) * y ^ 0 * X ^ 0
    + (60109917/400 : ℝ) * y ^ 0 * X ^ 1
    + (18096333/400 : ℝ) * y ^ 0 * X ^ 2
    + (-56324691/1000 : ℝ) * y ^ 0 * X ^ 3
    + (14467377/1600 : ℝ) * y ^ 0 * X ^ 4
    + (184463/5000 : ℝ) * y ^ 0 * X ^ 5
    + (119187/10000 : ℝ) * y ^ 0 * X ^ 6
    + (399399/40000 : ℝ) * y ^ 0 * X ^ 7
    + (105940499/100 : ℝ) * y ^ 1 * X ^ 0
    + (32377093/40 : ℝ) * y ^ 1 * X ^ 1
    + (86095899/400 : ℝ) * y ^ 1 * X ^ 2
    + (-40509099/2000 : ℝ) * y ^ 1 * X ^ 3
    + (1379046/125 : ℝ) * y ^ 1 * X ^ 4
    + (410967/500 : ℝ) * y ^ 1 * X ^ 5
    + (419307/2000 : ℝ) * y ^ 1 * X ^ 6
    + (46359341/16 : ℝ) * y ^ 2 * X ^ 0
    + (404675463/200 : ℝ) * y ^ 2 * X ^ 1
    + (7556099/20 : ℝ) * y ^ 2 * X ^ 2
    + (191728989/2000 : ℝ) * y ^ 2 * X ^ 3
    + (14532951/1000 : ℝ) * y ^ 2 * X ^ 4
    + (11243373/5000 : ℝ) * y ^ 2 * X ^ 5
    + (2795793/40000 : ℝ) * y ^ 2 * X ^ 6
    + (999797617/200 : ℝ) * y ^ 3 * X ^ 0
    + (614912621/200 : ℝ) * y ^ 3 * X ^ 1
    + (255962163/400 : ℝ) * y ^ 3 * X ^ 2
    + (707019/5 : ℝ) * y ^ 3 * X ^ 3
    + (9125143/500 : ℝ) * y ^ 3 * X ^ 4
    + (1257921/1000 : ℝ) * y ^ 3 * X ^ 5
    + (2428631537/400 : ℝ) * y ^ 4 * X ^ 0
    + (125863181/40 : ℝ) * y ^ 4 * X ^ 1
    + (581757891/800 : ℝ) * y ^ 4 * X ^ 2
    + (58807531/500 : ℝ) * y ^ 4 * X ^ 3
    + (4425837/400 : ℝ) * y ^ 4 * X ^ 4
    + (8387379/40000 : ℝ) * y ^ 4 * X ^ 5
    + (2181808063/400 : ℝ) * y ^ 5 * X ^ 0
    + (4906216191/2000 : ℝ) * y ^ 5 * X ^ 1
    + (66421797/125 : ℝ) * y ^ 5 * X ^ 2
    + (16195451/250 : ℝ) * y ^ 5 * X ^ 3
    + (1257921/400 : ℝ) * y ^ 5 * X ^ 4
    + (929942679/250 : ℝ) * y ^ 6 * X ^ 0
    + (2958972973/2000 : ℝ) * y ^ 6 * X ^ 1
    + (133008203/500 : ℝ) * y ^ 6 * X ^ 2
    + (11004999/500 : ℝ) * y ^ 6 * X ^ 3
    + (2795793/8000 : ℝ) * y ^ 6 * X ^ 4
    + (3970369877/2000 : ℝ) * y ^ 7 * X ^ 0
    + (85333353/125 : ℝ) * y ^ 7 * X ^ 1
    + (23265759/250 : ℝ) * y ^ 7 * X ^ 2
    + (419307/100 : ℝ) * y ^ 7 * X ^ 3
    + (6712892053/8000 : ℝ) * y ^ 8 * X ^ 0
    + (237134967/1000 : ℝ) * y ^ 8 * X ^ 1
    + (43900809/2000 : ℝ) * y ^ 8 * X ^ 2
    + (2795793/8000 : ℝ) * y ^ 8 * X ^ 3
    + (7041597/25 : ℝ) * y ^ 9 * X ^ 0
    + (30336067/500 : ℝ) * y ^ 9 * X ^ 1
    + (1257921/400 : ℝ) * y ^ 9 * X ^ 2
    + (371187823/5000 : ℝ) * y ^ 10 * X ^ 0
    + (54786621/5000 : ℝ) * y ^ 10 * X ^ 1
    + (8387379/40000 : ℝ) * y ^ 10 * X ^ 2
    + (299251/20 : ℝ) * y ^ 11 * X ^ 0
    + (1257921/1000 : ℝ) * y ^ 11 * X ^ 1
    + (21890811/10000 : ℝ) * y ^ 12 * X ^ 0
    + (2795793/40000 : ℝ) * y ^ 12 * X ^ 1
    + (419307/2000 : ℝ) * y ^ 13 * X ^ 0
    + (399399/40000 : ℝ) * y ^ 14 * X ^ 0

theorem gapPoly_eq (x y : ℝ) : 49 / 4 * ((hornerRI x y lowQ).1 ^ 2 + (hornerRI x y lowQ).2 ^ 2) -
    ((hornerRI x y lowM).1 ^ 2 + (hornerRI x y lowM).2 ^ 2) = gapPoly (x ^ 2) y := by
  simp only [hornerRI, lowQ, lowM, gapPoly]
  ring

/-- `|lowQ|²` expanded. -/
noncomputable def lowNorm (X y : ℝ) : ℝ :=
    (375769/25 : ℝ) * y ^ 0 * X ^ 0
    + (1226733/100 : ℝ) * y ^ 0 * X ^ 1
    + (492013/100 : ℝ) * y ^ 0 * X ^ 2
    + (327871/250 : ℝ) * y ^ 0 * X ^ 3
    + (478261/2000 : ℝ) * y ^ 0 * X ^ 4
    + (5358/125 : ℝ) * y ^ 0 * X ^ 5
    + (1144/625 : ℝ) * y ^ 0 * X ^ 6
    + (2162051/25 : ℝ) * y ^ 1 * X ^ 0
    + (660757/10 : ℝ) * y ^ 1 * X ^ 1
    + (492607/20 : ℝ) * y ^ 1 * X ^ 2
    + (117669/20 : ℝ) * y ^ 1 * X ^ 3
    + (130568/125 : ℝ) * y ^ 1 * X ^ 4
    + (5487/50 : ℝ) * y ^ 1 * X ^ 5
    + (524/25 : ℝ) * y ^ 1 * X ^ 6
    + (946109/4 : ℝ) * y ^ 2 * X ^ 0
    + (8381383/50 : ℝ) * y ^ 2 * X ^ 1
    + (285302/5 : ℝ) * y ^ 2 * X ^ 2
    + (6146429/500 : ℝ) * y ^ 2 * X ^ 3
    + (222024/125 : ℝ) * y ^ 2 * X ^ 4
    + (141864/625 : ℝ) * y ^ 2 * X ^ 5
    + (20404033/50 : ℝ) * y ^ 3 * X ^ 0
    + (13255213/50 : ℝ) * y ^ 3 * X ^ 1
    + (8108331/100 : ℝ) * y ^ 3 * X ^ 2
    + (1890148/125 : ℝ) * y ^ 3 * X ^ 3
    + (3823/2 : ℝ) * y ^ 3 * X ^ 4
    + (3144/25 : ℝ) * y ^ 3 * X ^ 5
    + (49686609/100 : ℝ) * y ^ 4 * X ^ 0
    + (14578687/50 : ℝ) * y ^ 4 * X ^ 1
    + (15652931/200 : ℝ) * y ^ 4 * X ^ 2
    + (1531916/125 : ℝ) * y ^ 4 * X ^ 3
    + (138432/125 : ℝ) * y ^ 4 * X ^ 4
    + (45232671/100 : ℝ) * y ^ 5 * X ^ 0
    + (117667671/500 : ℝ) * y ^ 5 * X ^ 1
    + (6716236/125 : ℝ) * y ^ 5 * X ^ 2
    + (32743/5 : ℝ) * y ^ 5 * X ^ 3
    + (1572/5 : ℝ) * y ^ 5 * X ^ 4
    + (39756887/125 : ℝ) * y ^ 6 * X ^ 0
    + (71590029/500 : ℝ) * y ^ 6 * X ^ 1
    + (3317184/125 : ℝ) * y ^ 6 * X ^ 2
    + (274576/125 : ℝ) * y ^ 6 * X ^ 3
    + (87914141/500 : ℝ) * y ^ 7 * X ^ 0
    + (331372/5 : ℝ) * y ^ 7 * X ^ 1
    + (46371/5 : ℝ) * y ^ 7 * X ^ 2
    + (2096/5 : ℝ) * y ^ 7 * X ^ 3
    + (153938261/2000 : ℝ) * y ^ 8 * X ^ 0
    + (2899926/125 : ℝ) * y ^ 8 * X ^ 1
    + (273432/125 : ℝ) * y ^ 8 * X ^ 2
    + (3327644/125 : ℝ) * y ^ 9 * X ^ 0
    + (59999/10 : ℝ) * y ^ 9 * X ^ 1
    + (1572/5 : ℝ) * y ^ 9 * X ^ 2
    + (897992/125 : ℝ) * y ^ 10 * X ^ 0
    + (681864/625 : ℝ) * y ^ 10 * X ^ 1
    + (73627/50 : ℝ) * y ^ 11 * X ^ 0
    + (3144/25 : ℝ) * y ^ 11 * X ^ 1
    + (136144/625 : ℝ) * y ^ 12 * X ^ 0
    + (524/25 : ℝ) * y ^ 13 * X ^ 0

theorem lowNorm_eq (x y : ℝ) : (hornerRI x y lowQ).1 ^ 2 + (hornerRI x y lowQ).2 ^ 2 =
    (x ^ 2 + y ^ 2) ^ 7 + lowNorm (x ^ 2) y := by
  simp only [hornerRI, lowQ, lowNorm]
  ring


theorem gap0_nonneg {X : ℝ} (hX : 0 ≤ X) : 0 ≤ (18412681/100 : ℝ) * X ^ 0 + (60109917/400 : ℝ) * X ^ 1 + (18096333/400 : ℝ) * X ^ 2 + (-56324691/1000 : ℝ) * X ^ 3 + (14467377/1600 : ℝ) * X ^ 4 + (184463/5000 : ℝ) * X ^ 5 + (119187/10000 : ℝ) * X ^ 6 + (399399/40000 : ℝ) * X ^ 7 := by
  have h1 : 0 ≤ 9042 * X ^ 2 * (X - 3.1146) ^ 2 := by positivity
  have h5 : 0 ≤ X ^ 5 := by positivity
  have h6 : 0 ≤ X ^ 6 := by positivity
  have h4 : 0 ≤ X ^ 4 := by positivity
  have h7 : 0 ≤ X ^ 7 := by positivity
  have h3 : 0 ≤ X ^ 3 := by positivity
  have h2 : 0 ≤ X ^ 2 := by positivity
  have key : 42500 * X ^ 2 ≤ 184126 + 150274 * X + 36 * X ^ 5 + 11 * X ^ 6 + 9 * X ^ 7 := by
    rcases le_or_gt X 4.4 with h | h
    · nlinarith
    · rcases le_or_gt X 6 with h' | h'
      · have a5 : (4.4 : ℝ) ^ 5 ≤ X ^ 5 := by gcongr
        have e7 : X ^ 7 = X ^ 5 * X ^ 2 := by ring
        have e6 : X ^ 6 = X ^ 5 * X := by ring
        have b7 := mul_le_mul_of_nonneg_right a5 h2
        have b6 := mul_le_mul_of_nonneg_right a5 hX
        rw [← e7] at b7
        rw [← e6] at b6
        norm_num at b7 b6 a5
        nlinarith
      · have a5 : (6 : ℝ) ^ 5 ≤ X ^ 5 := by gcongr
        have e7 : X ^ 7 = X ^ 5 * X ^ 2 := by ring
        have b7 := mul_le_mul_of_nonneg_right a5 h2
        rw [← e7] at b7
        nlinarith
  nlinarith

theorem gap1_nonneg {X : ℝ} (hX : 0 ≤ X) : 0 ≤ (105940499/100 : ℝ) * X ^ 0 + (32377093/40 : ℝ) * X ^ 1 + (86095899/400 : ℝ) * X ^ 2 + (-40509099/2000 : ℝ) * X ^ 3 + (1379046/125 : ℝ) * X ^ 4 + (410967/500 : ℝ) * X ^ 5 + (419307/2000 : ℝ) * X ^ 6 := by
  have h1 : 0 ≤ 11032 * X ^ 2 * (X - 0.918) ^ 2 := by positivity
  have h5 : 0 ≤ X ^ 5 := by positivity
  have h6 : 0 ≤ X ^ 6 := by positivity
  have h4 : 0 ≤ X ^ 4 := by positivity
  have h3 : 0 ≤ X ^ 3 := by positivity
  have h2 : 0 ≤ X ^ 2 := by positivity
  nlinarith

theorem gapPoly_nonneg {X y : ℝ} (hX : 0 ≤ X) (hy : 0 ≤ y) : 0 ≤ gapPoly X y := by
  have a := gap0_nonneg hX
  have b := mul_nonneg hy (gap1_nonneg hX)
  have c : 0 ≤ (46359341/16 : ℝ) * y ^ 2 * X ^ 0 + (404675463/200 : ℝ) * y ^ 2 * X ^ 1 + (7556099/20 : ℝ) * y ^ 2 * X ^ 2 + (191728989/2000 : ℝ) * y ^ 2 * X ^ 3 + (14532951/1000 : ℝ) * y ^ 2 * X ^ 4 + (11243373/5000 : ℝ) * y ^ 2 * X ^ 5 + (2795793/40000 : ℝ) * y ^ 2 * X ^ 6 + (999797617/200 : ℝ) * y ^ 3 * X ^ 0 + (614912621/200 : ℝ) * y ^ 3 * X ^ 1 + (255962163/400 : ℝ) * y ^ 3 * X ^ 2 + (707019/5 : ℝ) * y ^ 3 * X ^ 3 + (9125143/500 : ℝ) * y ^ 3 * X ^ 4 + (1257921/1000 : ℝ) * y ^ 3 * X ^ 5 + (2428631537/400 : ℝ) * y ^ 4 * X ^ 0 + (125863181/40 : ℝ) * y ^ 4 * X ^ 1 + (581757891/800 : ℝ) * y ^ 4 * X ^ 2 + (58807531/500 : ℝ) * y ^ 4 * X ^ 3 + (4425837/400 : ℝ) * y ^ 4 * X ^ 4 + (8387379/40000 : ℝ) * y ^ 4 * X ^ 5 + (2181808063/400 : ℝ) * y ^ 5 * X ^ 0 + (4906216191/2000 : ℝ) * y ^ 5 * X ^ 1 + (66421797/125 : ℝ) * y ^ 5 * X ^ 2 + (16195451/250 : ℝ) * y ^ 5 * X ^ 3 + (1257921/400 : ℝ) * y ^ 5 * X ^ 4 + (929942679/250 : ℝ) * y ^ 6 * X ^ 0 + (2958972973/2000 : ℝ) * y ^ 6 * X ^ 1 + (133008203/500 : ℝ) * y ^ 6 * X ^ 2 + (11004999/500 : ℝ) * y ^ 6 * X ^ 3 + (2795793/8000 : ℝ) * y ^ 6 * X ^ 4 + (3970369877/2000 : ℝ) * y ^ 7 * X ^ 0 + (85333353/125 : ℝ) * y ^ 7 * X ^ 1 + (23265759/250 : ℝ) * y ^ 7 * X ^ 2 + (419307/100 : ℝ) * y ^ 7 * X ^ 3 + (6712892053/8000 : ℝ) * y ^ 8 * X ^ 0 + (237134967/1000 : ℝ) * y ^ 8 * X ^ 1 + (43900809/2000 : ℝ) * y ^ 8 * X ^ 2 + (2795793/8000 : ℝ) * y ^ 8 * X ^ 3 + (7041597/25 : ℝ) * y ^ 9 * X ^ 0 + (30336067/500 : ℝ) * y ^ 9 * X ^ 1 + (1257921/400 : ℝ) * y ^ 9 * X ^ 2 + (371187823/5000 : ℝ) * y ^ 10 * X ^ 0 + (54786621/5000 : ℝ) * y ^ 10 * X ^ 1 + (8387379/40000 : ℝ) * y ^ 10 * X ^ 2 + (299251/20 : ℝ) * y ^ 11 * X ^ 0 + (1257921/1000 : ℝ) * y ^ 11 * X ^ 1 + (21890811/10000 : ℝ) * y ^ 12 * X ^ 0 + (2795793/40000 : ℝ) * y ^ 12 * X ^ 1 + (419307/2000 : ℝ) * y ^ 13 * X ^ 0 + (399399/40000 : ℝ) * y ^ 14 * X ^ 0 := by
    positivity
  have := add_nonneg (add_nonneg a b) c
  unfold gapPoly
  linear_combination this

theorem lowNorm_nonneg {X y : ℝ} (hX : 0 ≤ X) (hy : 0 ≤ y) : 0 ≤ lowNorm X y := by
  unfold lowNorm
  positivity

section

variable {z : ℂ}

theorem low_gap (hz : 0 ≤ z.re) : ‖hornerC z lowM‖ ≤ 7 / 2 * ‖hornerC z lowQ‖ := by
  have e : z = ⟨z.re, -(-z.im)⟩ := by rw [neg_neg]
  have h := gapPoly_eq (-z.im) z.re
  rw [← hornerC_norm, ← hornerC_norm, ← e] at h
  have h' := gapPoly_nonneg (X := (-z.im) ^ 2) (sq_nonneg _) hz
  refine (pow_le_pow_iff_left₀ (norm_nonneg _) (by positivity) two_ne_zero).1 ?_
  rw [mul_pow]
  linarith

theorem low_large (hz : 0 ≤ z.re) : ‖z‖ ^ 7 ≤ ‖hornerC z lowQ‖ := by
  have e : z = ⟨z.re, -(-z.im)⟩ := by rw [neg_neg]
  have h := lowNorm_eq (-z.im) z.re
  rw [← hornerC_norm, ← e] at h
  have h' := lowNorm_nonneg (X := (-z.im) ^ 2) (sq_nonneg _) hz
  have hn : ‖z‖ ^ 2 = (-z.im) ^ 2 + z.re ^ 2 := by rw [Complex.sq_norm, Complex.normSq_apply]; ring
  refine (pow_le_pow_iff_left₀ (by positivity) (norm_nonneg _) two_ne_zero).1 ?_
  rw [← pow_mul, mul_comm, pow_mul, hn]
  linarith

theorem rest_small {r : ℝ} (h : 2 ≤ r) (h' : r ≤ 16) :
    hornerSize r restN ≤ 0.0107 * r ^ 7 ∧ hornerSize r restQ ≤ 0.0043 * r ^ 7 := by
  have h0 : 0 < r := by linarith
  have d1 : r ^ 6 ≤ r ^ 7 / 2 := by
    have : r ^ 7 = r ^ 6 * r := by ring
    rw [this, le_div_iff₀ two_pos]; gcongr
  have d2 : r ^ 5 ≤ r ^ 7 / 4 := by
    have : r ^ 7 = r ^ 5 * r ^ 2 := by ring
    rw [this, le_div_iff₀ (by norm_num)]; gcongr; nlinarith
  have d3 : r ^ 4 ≤ r ^ 7 / 8 := by
    have : r ^ 7 = r ^ 4 * r ^ 3 := by ring
    have : (2 : ℝ) ^ 3 ≤ r ^ 3 := by gcongr
    rw [‹r ^ 7 = r ^ 4 * r ^ 3›, le_div_iff₀ (by norm_num)]; gcongr; linarith
  have d4 : r ^ 3 ≤ r ^ 7 / 16 := by
    have : (2 : ℝ) ^ 4 ≤ r ^ 4 := by gcongr
    rw [show r ^ 7 = r ^ 3 * r ^ 4 by ring, le_div_iff₀ (by norm_num)]; gcongr; linarith
  have d5 : r ^ 2 ≤ r ^ 7 / 32 := by
    have : (2 : ℝ) ^ 5 ≤ r ^ 5 := by gcongr
    rw [show r ^ 7 = r ^ 2 * r ^ 5 by ring, le_div_iff₀ (by norm_num)]; gcongr; linarith
  have d6 : r ≤ r ^ 7 / 64 := by
    have : (2 : ℝ) ^ 6 ≤ r ^ 6 := by gcongr
    rw [show r ^ 7 = r * r ^ 6 by ring, le_div_iff₀ (by norm_num)]; gcongr; linarith
  have d7 : 1 ≤ r ^ 7 / 128 := by
    have : (2 : ℝ) ^ 7 ≤ r ^ 7 := by gcongr
    rw [le_div_iff₀ (by norm_num)]; linarith
  have u1 : r ^ 8 ≤ 16 * r ^ 7 := by rw [show r ^ 8 = r * r ^ 7 by ring]; gcongr
  have u2 : r ^ 9 ≤ 16 ^ 2 * r ^ 7 := by rw [show r ^ 9 = r ^ 2 * r ^ 7 by ring]; gcongr
  have u3 : r ^ 10 ≤ 16 ^ 3 * r ^ 7 := by rw [show r ^ 10 = r ^ 3 * r ^ 7 by ring]; gcongr
  have u4 : r ^ 11 ≤ 16 ^ 4 * r ^ 7 := by rw [show r ^ 11 = r ^ 4 * r ^ 7 by ring]; gcongr
  constructor
  · simp only [hornerSize, restN]
    norm_num [abs_of_pos, abs_of_neg]
    linarith
  · simp only [hornerSize, restQ]
    norm_num [abs_of_pos, abs_of_neg]
    linarith

/-- Denominator of `h`. -/
noncomputable def huiQ (z : ℂ) : ℂ :=
  122.607931773875350 + 352.730625110963558 * z + 457.334478783897737 * z ^ 2 + 348.703917719495792 * z ^ 3
    + 170.354001821091472 * z ^ 4 + 53.992906912940207 * z ^ 5 + 10.479857114260399 * z ^ 6 + z ^ 7

/-- Numerator of `h`. -/
noncomputable def huiP (z : ℂ) : ℂ :=
  122.607931777104326 + 214.382388694706425 * z + 181.928533092181549 * z ^ 2 + 93.155580458138441 * z ^ 3
    + 30.180142196210589 * z ^ 4 + 5.912626209773153 * z ^ 5 + 0.564189583562615 * z ^ 6

theorem huiQ_split (z : ℂ) : huiQ z = hornerC z lowQ + hornerC z restQ := by
  simp only [huiQ, hornerC, lowQ, restQ]
  push_cast
  norm_num
  ring

theorem huiN_split (z : ℂ) : z ^ 2 * (2 * z ^ 2 * (huiQ z - 1.77245385090551603 * z * huiP z) - huiQ z) =
    hornerC z restN - hornerC z lowM := by
  simp only [huiQ, huiP, hornerC, lowM, restN]
  push_cast
  norm_num
  ring

/-- In the right half plane, not too close to the origin: `z² g(z)` is `1` up to `3.53 / |z|²`. -/
theorem hui_far (hz : 0 ≤ z.re) (h : 2 ≤ ‖z‖) (h' : ‖z‖ ≤ 16) :
    ‖z‖ ^ 2 * ‖z ^ 2 * (2 * (1 - 1.77245385090551603 * z * hui z)) - 1‖ ≤ 3.53 := by
  obtain ⟨r1, r2⟩ := rest_small h h'
  have l1 := low_large hz
  have l2 := low_gap hz
  have n1 : ‖hornerC z restN - hornerC z lowM‖ ≤ 3.5107 * ‖hornerC z lowQ‖ := by
    refine (norm_sub_le _ _).trans ?_
    have := hornerC_le z restN
    linarith
  have n2 : 0.9957 * ‖hornerC z lowQ‖ ≤ ‖huiQ z‖ := by
    rw [huiQ_split]
    have a := norm_sub_le (hornerC z lowQ + hornerC z restQ) (hornerC z restQ)
    rw [add_sub_cancel_right] at a
    have := hornerC_le z restQ
    linarith
  have hp : 0 < ‖z‖ ^ 7 := by positivity
  have hQ : huiQ z ≠ 0 := by
    rw [← norm_pos_iff]
    linarith
  have e : z ^ 2 * (z ^ 2 * (2 * (1 - 1.77245385090551603 * z * hui z)) - 1) =
      (hornerC z restN - hornerC z lowM) / huiQ z := by
    rw [← huiN_split, eq_div_iff hQ]
    have : hui z = huiP z / huiQ z := rfl
    rw [this]
    field_simp
  rw [← norm_pow, ← norm_mul, e, norm_div, div_le_iff₀ (norm_pos_iff.2 hQ)]
  linarith

end

end Verif.Lemmas
