import Verif.Spec.ClearSky
import Verif.Spec.Sky

/-!
# Specification: absorption for all models, ozone and clouds included, in closed form

Conventions of `Verif.Spec.ClearSky`.
-/

namespace Verif.Spec

open Real

/-! ## Water vapour -/

/-- Self-continuum of MT-CKD at the multiples `k` of 10 cm⁻¹, even in `k`. -/
noncomputable def selfNode (T : ℝ) (k : ℤ) : ℝ :=
  let q : ℝ × ℝ := match k.natAbs with
    | 0 => (2.877, 6.413)
    | 1 => (2.855, 6.414)
    | 2 => (2.731, 6.275)
    | 3 => (2.49, 6.049)
    | 4 => (2.178, 5.789)
    | 5 => (1.863, 5.557)
    | _ => (0, 0)
  6.532e-9 * q.1 * (296 / T) ^ (q.2 + 3)

/-- Catmull-Rom spline: cubic from `b` to `c` with the slopes `(c - a)/2` and `(d - b)/2`. -/
noncomputable def spline (a b c d p : ℝ) : ℝ :=
  b + p * ((c - a) / 2 + p * (a - 5 / 2 * b + 2 * c - d / 2 + p * (3 / 2 * (b - c) + (d - a) / 2)))

/-- Self-continuum between the nodes. -/
noncomputable def selfContinuum (T ν : ℝ) : ℝ :=
  let k := ⌊ν / 299.792458⌋
  spline (selfNode T (k - 1)) (selfNode T k) (selfNode T (k + 1)) (selfNode T (k + 2)) (ν / 299.792458 - k)

/-- Minus the second virial coefficient of water vapour, cm³/mol. -/
noncomputable def secondVirial (T : ℝ) : ℝ :=
  (-7.804242e6 + T * (8.345651e4 + T * (-4.212794e2 + T * (1.242946 + T * (-2.409822e-3 + T * (3.017768e-6 +
    T * (-2.518957e-9 + T * (1.350628e-12 + T * (-4.134191e-16 + T * 5.530774e-20))))))))) * -((100 / T) ^ 6)

/-- Equilibrium constant of bound dimers, 1/hPa. -/
noncomputable def boundDimers (T : ℝ) : ℝ := 4.7856e-4 * exp (1669.8 / T - 5.10485e-3 * T) / 1013.25

/-- Equilibrium constant of metastable dimers, 1/hPa. -/
noncomputable def metastableDimers (T : ℝ) : ℝ := (secondVirial T - 30.5) / (82.05746 * T) / 1013.25 - boundDimers T

/-- Spectrum of bound dimers. -/
noncomputable def dimerSpectrum (T ν : ℝ) : ℝ :=
  (5.55e-8 / (434.8 ^ 2 + (ν - 219.5) ^ 2) + 4.93e-10 / (21.06 ^ 2 + ν ^ 2) + 1.34e-14) * (268 / T) ^ 10

/-- Self-continuum of MWL24: bound dimers, metastable dimers (seven tenths of them as bound ones, the rest as pairs of
monomers), far wings. -/
noncomputable def dimerContinuum (T ν : ℝ) : ℝ :=
  1e5 * (ν ^ 2 * (dimerSpectrum T ν + metastableDimers T * (0.7 * dimerSpectrum T ν / boundDimers T +
    0.3 * (1e-13 * (4.06 + 7.12e-3 * ν) / 1013.25) * (266 / T) ^ (2.9 : ℝ))) +
    8.5e-15 * ν ^ (2.2 : ℝ) * (296 / T) ^ (1.5 : ℝ))

/-- Water vapour. -/
noncomputable def vapourAbsorption (m : String) (c : String → ℕ → ℝ) (n : ℕ) (T p e ν : ℝ) : ℝ :=
  let pv := vapourPressure m T (e / 10)
  let lines := lineAbsorption m (vapourDensity T (e / 10)) (lineSum m c n T (p - pv) pv ν)
  if m = "R23SD" ∨ m = "R24" then
    lines + continuum (c "cf" 0) (c "xcf" 0) (selfContinuum T ν) 0 (c "reftline" 0 / T) (p - pv) pv ν
  else if m = "MWL24" then
    lines + (dimerContinuum T ν * pv + 7.1e-10 * (300 / T) ^ (4.4 : ℝ) * ν ^ (1.96 : ℝ) * (p - pv)) * pv
  else waterAbsorption m c n T p e ν

/-! ## Oxygen -/

/-- Weight of line `k` in the sum rules. -/
noncomputable def ruleWeight (c : String → ℕ → ℝ) (θ : ℝ) (k : ℕ) : ℝ := oxyStrength c θ k / c "f" k ^ 2

/-- Listed second-order mixing of line `k`. -/
noncomputable def listed2 (c : String → ℕ → ℝ) (θ : ℝ) (k : ℕ) : ℝ := c "g0" k + c "g1" k * (θ - 1)

/-- Listed first-order mixing of line `k`. -/
noncomputable def listed1 (c : String → ℕ → ℝ) (θ : ℝ) (k : ℕ) : ℝ := c "y300" k + c "y1" k * (θ - 1)

/-- Centre of line `k` at the effective pressure `d`. -/
noncomputable def shifted (c : String → ℕ → ℝ) (θ d : ℝ) (k : ℕ) : ℝ := c "f" k + d ^ 2 * (c "dnu0" k + c "dnu1" k * (θ - 1))

/-- R23: weighted mean of the second-order coefficients of lines 1 to 37, to be taken off. -/
noncomputable def meanMixing (c : String → ℕ → ℝ) (θ : ℝ) : ℝ :=
  (∑ k ∈ Finset.Icc 1 37, ruleWeight c θ k * listed2 c θ k) / ∑ k ∈ Finset.Icc 1 37, ruleWeight c θ k

/-- R24: first-order coefficients with the correction that makes the first sum rule hold. -/
noncomputable def ruled1 (c : String → ℕ → ℝ) (θ : ℝ) (k : ℕ) : ℝ :=
  0.99 * listed1 c θ k - if 1 ≤ k ∧ k ≤ 37 then
    (1.584e-17 / θ * c "wb300" 0 + 2 * ∑ i ∈ Finset.range 38, ruleWeight c θ i * (c "w300" i + 0.99 * listed1 c θ i * c "f" i)) /
      (2 * ∑ i ∈ Finset.Icc 1 37, ruleWeight c θ i) / c "f" k
  else 0

/-- R24: second-order coefficients with the correction that makes the second sum rule hold. -/
noncomputable def ruled2 (c : String → ℕ → ℝ) (θ : ℝ) (k : ℕ) : ℝ :=
  if 1 ≤ k ∧ k ≤ 37 then
    listed2 c θ k - (∑ i ∈ Finset.Icc 1 37, ruleWeight c θ i * listed2 c θ i) /
      (∑ i ∈ Finset.Icc 1 37, ruleWeight c θ i ^ 2) * ruleWeight c θ k
  else 0

/-- Line `k` of R23 without its strength. -/
noncomputable def line23 (c : String → ℕ → ℝ) (θ d ν : ℝ) (k : ℕ) : ℝ :=
  oxyStrength c θ k * (ν / c "f" k) ^ 2 * newLine k (c "w300" k * d)
    (if 1 ≤ k ∧ k ≤ 37 then 1 + (0.99 * d) ^ 2 * (listed2 c θ k - meanMixing c θ) else 1)
    (0.99 * d * listed1 c θ k) (shifted c θ (0.99 * d) k) ν

/-- Line `k` of R24. -/
noncomputable def line24 (c : String → ℕ → ℝ) (θ d ν : ℝ) (k : ℕ) : ℝ :=
  oxyStrength c θ k * (ν / c "f" k) ^ 2 *
    newLine k (c "w300" k * d) (1 + d ^ 2 * ruled2 c θ k) (d * ruled1 c θ k) (shifted c θ d k) ν

/-- Oxygen. -/
noncomputable def oxyAbsorption (m : String) (c : String → ℕ → ℝ) (n : ℕ) (T p e ν : ℝ) : ℝ :=
  let pv := oxyVapour m T (e / 10)
  let d := broadening m (c "x" 0) (300 / T) (p - pv) pv
  let units := 1.6097e11 * (p - pv) * (300 / T) ^ 3
  let band := debye 1.584e-17 (300 / T) (c "wb300" 0 * d) ν
  if m = "R23" then
    max 0 (units * (max 0 (band + ∑ k ∈ Finset.range 38, line23 c (300 / T) d ν k) +
      ∑ k ∈ Finset.Ico 38 n, line23 c (300 / T) d ν k))
  else if m = "R24" then max 0 (units * (band + ∑ k ∈ Finset.range n, line24 c (300 / T) d ν k))
  else oxygenAbsorption m c n T p e ν

/-! ## Ozone -/

/-- Pressure half-width of line `k`. -/
noncomputable def ozoneWidth (c : String → ℕ → ℝ) (T p : ℝ) (k : ℕ) : ℝ := c "w" k * p * (296 / T) ^ c "x" k

/-- Strength of line `k`. -/
noncomputable def ozoneStrength (c : String → ℕ → ℝ) (T : ℝ) (k : ℕ) : ℝ := c "s1" k * exp (c "b" k * (1 - 296 / T))

/-- Lorentz shape with a width for pressure and Doppler broadening together. -/
noncomputable def ozoneLorentz (c : String → ℕ → ℝ) (T p ν : ℝ) (k : ℕ) : ℝ :=
  let w := ozoneWidth c T p k
  let W := 0.5346 * w + √(0.2166 * w ^ 2 + 0.6931 * (3.85e-15 * T * c "fl" k ^ 2))
  ozoneStrength c T k * ((ν / c "fl" k) ^ 2 * (W / ((ν - c "fl" k) ^ 2 + W ^ 2)))

/-- Voigt profile. -/
noncomputable def ozoneVoigt (c : String → ℕ → ℝ) (T p ν : ℝ) (k : ℕ) : ℝ :=
  let β := 0.62065e-7 * c "fl" k * √T
  ozoneStrength c T k * (hui ⟨ozoneWidth c T p k / β, (ν - c "fl" k) / β⟩).re / β

/-- Ozone of number density `d`: the lines at most 1 GHz away. -/
noncomputable def ozoneAbsorption (m : String) (c : String → ℕ → ℝ) (n : ℕ) (T p ν d : ℝ) : ℝ :=
  let voigt := m = "R22" ∨ m = "R22SD"
  (if voigt then 0.56419e-10 else 3.183e-11) * d * (1 - exp (-1008 / T)) * (296 / T) ^ (2.5 : ℝ) *
    ∑ k ∈ Finset.range n, if |c "fl" k - ν| ≤ 1 then
      (if voigt then ozoneVoigt c T p ν k else ozoneLorentz c T p ν k) else 0

/-! ## Cloud particles -/

/-- Liquid water of density `w`. -/
noncomputable def liquidAbsorption (m : String) (T w ν : ℝ) : ℝ :=
  if m = "R98" ∨ m = "R03" then
    let ε₀ := liebeStatic T
    let r := liebeRelax (decide (m = "R03")) T
    dropletAbsorption (3.52 + debyeRe ((1 - 0.0671) * ε₀) r ν + debyeRe (0.0671 * ε₀ - 3.52) (39.8 * r) ν)
      (debyeLoss ((1 - 0.0671) * ε₀) r ν + debyeLoss (0.0671 * ε₀ - 3.52) (39.8 * r) ν) w ν
  else
    let c := T - 273.15
    dropletAbsorption (patekStatic T - debyeAbove (ellisonStrength c) (ellisonFreq c) ν + (bandB c ν).re)
      (debyeLoss (ellisonStrength c) (ellisonFreq c) ν - (bandB c ν).im) w ν

/-- Ice of density `w`: inversely proportional to the wavelength. -/
noncomputable def iceAbsorption (w ν : ℝ) : ℝ := 8.18645 * 0.000959553 * (log 10 / 10) * w * (ν / 29.9792458)

/-! ## Everything -/

/-- Models and line lists; no ozone without a model for it. -/
structure Composition extends Gases where
  ozone : Option String
  ozoneList : String → ℕ → ℝ
  ozoneLines : ℕ
  liquid : String

/-- Ozone at level `i`, if there is a model for it and a profile `d`. -/
noncomputable def Composition.ozoneAt (G : Composition) (d : Option (ℕ → ℝ)) (T p ν : ℝ) (i : ℕ) : ℝ :=
  match G.ozone, d with
  | some m, some d => ozoneAbsorption m G.ozoneList G.ozoneLines T p ν (d i)
  | _, _ => 0

/-- Levels with ozone number density, liquid and ice density. -/
structure FullScene extends Scene where
  ozone : Option (ℕ → ℝ)
  liquid : ℕ → ℝ
  ice : ℕ → ℝ

/-- The sky of a scene along a path with the layers `len`. -/
noncomputable def FullScene.sky (s : FullScene) (G : Composition) (len : ℕ → ℝ) (ν : ℝ) : Sky where
  top := s.top
  T := s.T
  wet i := vapourAbsorption G.water G.waterList G.waterLines (s.T i) (s.p i) (s.vapour i) ν
  dry i := oxyAbsorption G.oxygen G.oxygenList G.oxygenLines (s.T i) (s.p i) (s.vapour i) ν +
    nitrogenAbsorption G.nitrogen (s.T i) (s.p i - s.vapour i) ν +
    G.ozoneAt s.ozone (s.T i) (s.p i) ν i
  liq i := if 0 < s.liquid i then liquidAbsorption G.liquid (s.T i) (s.liquid i) ν else 0
  ice i := if 0 < s.ice i then iceAbsorption (s.ice i) ν else 0
  len := len

end Verif.Spec
