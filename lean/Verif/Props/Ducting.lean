import Verif.Props.SlantRay

/-!
# Rays that are trapped (C109)
-/

namespace Verif.Props

open Verif.Model Verif.Py Verif.Spec Real

/-- By Snell's law no ray of the given initial elevation reaches level `i`: `n r` there is at most `n r cos θ` at the antenna. -/
def Unreachable (I : RayIn) (i : ℕ) : Prop :=
  I.refindx i * radius I.z0 (I.z i) ≤ I.refindx 0 * radius I.z0 0 * cos (rad I.angle)

section
variable {I : RayIn}

/-- The test of the program is Snell's law. -/
theorem ducting_iff {i : ℕ} (hz : I.z 0 = 0) (hrs : 0 < radius I.z0 0) (hi : 0 < I.refindx i) (hr : 0 < radius I.z0 (I.z i)) :
    I.argth i ≤ 0 ↔ Unreachable I i := by
  have hrs' : 0 < I.rs := by rw [rs_eq hz]; exact hrs
  have hr' : 0 < I.r i := hr
  have e1 : I.a0 = 1 - cos I.theta0 := by
    unfold RayIn.a0 RayIn.sina
    have := Real.cos_sq' (I.theta0 / 2)
    have h2 := Real.cos_sq (I.theta0 / 2)
    rw [show 2 * (I.theta0 / 2) = I.theta0 by ring] at h2
    have h3 : I.theta0 * 0.5 = I.theta0 / 2 := by norm_num; ring
    rw [h3]
    norm_num
    linarith
  have e2 : I.z i = I.r i - I.rs := by rw [rs_eq hz]; simp only [r_eq, radius]; ring
  have key : I.a0 + I.argdth i = (I.refindx i * I.r i - I.refindx 0 * I.rs * cos I.theta0) / (I.refindx i * I.rs) := by
    unfold RayIn.argdth
    rw [e1, e2]
    field_simp
    ring
  unfold RayIn.argth Unreachable
  rw [key, ← rs_eq hz]
  have : 0.5 * ((I.refindx i * I.r i - I.refindx 0 * I.rs * cos I.theta0) / (I.refindx i * I.rs)) / I.r i =
      (I.refindx i * I.r i - I.refindx 0 * I.rs * cos I.theta0) * (1 / (2 * I.refindx i * I.rs * I.r i)) := by
    norm_num
    field_simp
  rw [this]
  have hpos : 0 < 1 / (2 * I.refindx i * I.rs * I.r i) := by positivity
  constructor
  · intro h
    have := nonpos_of_mul_nonpos_left h hpos
    exact sub_nonpos.1 this
  · intro h
    exact mul_nonpos_of_nonpos_of_nonneg (sub_nonpos.2 h) hpos.le

theorem loop_stops {σ : Type} {D n : ℕ} {f : ℕ → σ → Except σ σ} {s : σ} (hD : 1 ≤ D) (hn : D < n) (h : ∀ s, f D s = .error s) :
    ∃ s', forRangeE 1 n f s = .error s' ∧ (forRangeE 1 D f s = .error s' ∨ forRangeE 1 D f s = .ok s') := by
  induction n, hn using Nat.le_induction with
  | base =>
    rw [forRangeE_succ hD]
    cases forRangeE 1 D f s with
    | error s' => exact ⟨s', rfl, Or.inl rfl⟩
    | ok s' => exact ⟨s', h s', Or.inr rfl⟩
  | succ n hn ih =>
    obtain ⟨s', h1, h2⟩ := ih
    exact ⟨s', by rw [forRangeE_succ (by omega), h1]; rfl, h2⟩

end

/-- **C109.** A ray that cannot reach level `D` is followed to the level below: the result is that for the atmosphere without the
levels from `D` on, and all path lengths from `D` on are 0, no error and no missing value. -/
theorem C109_cut {I : RayIn} {D : ℕ} (hz : I.z 0 = 0) (hr : ∀ i < I.nl, 0 < radius I.z0 (I.z i))
    (hn : ∀ i < I.nl, 1 ≤ I.refindx i) (ha : ¬ ((89 ≤ I.angle ∧ I.angle ≤ 91) ∨ (-91 ≤ I.angle ∧ I.angle ≤ -89)))
    (h1 : 1 ≤ D) (hD : D < I.nl) (hU : Unreachable I D) :
    rayTracing I = rayTracing { I with nl := D } ∧ ∃ ds, rayTracing I = some ds ∧ ∀ i, D ≤ i → ds i = some 0 := by
  have hrs : 0 < radius I.z0 0 := by have := hr 0 (by omega); rwa [hz] at this
  have hpos := hn D hD
  have harg := (ducting_iff hz hrs (by linarith) (hr D hD)).2 hU
  have hslant : raySlant I = raySlant { I with nl := D } := by
    obtain ⟨s', a1, a2⟩ := loop_stops (f := rayBody I) (s := rayInit I) h1 hD fun s => if_pos harg
    have e : raySlant { I with nl := D } =
        match forRangeE 1 D (rayBody I) (rayInit I) with | .error s => s | .ok s => s := rfl
    rw [e]
    unfold raySlant
    rw [a1]
    rcases a2 with a2 | a2 <;> rw [a2]
  have hz' : ¬ nearZenith I.angle := ha
  have e1 : rayTracing I = some (raySlant I).ds := by
    unfold rayTracing
    rw [if_neg (by push Not; exact hn), if_neg hz']
  have e2 : rayTracing { I with nl := D } = some (raySlant { I with nl := D }).ds := by
    unfold rayTracing
    rw [if_neg (by push Not; intro i hi; exact hn i (lt_trans hi hD)), if_neg hz']
  refine ⟨by rw [e1, e2, hslant], _, e1, fun i hi => ?_⟩
  rw [hslant]
  obtain ⟨k, k1, k2, -, -, h5, -⟩ := raySlant_shape { I with nl := D } h1 (fun _ _ _ _ _ => True) (fun _ _ _ _ _ _ => trivial)
  exact h5 i (Or.inr (le_trans k2 hi))

/-- **C109.** Rays that reach every level are followed through every layer: where the lengths are numbers, they are at least the
thickness of the layer. -/
theorem C109_complete {I : RayIn} (hnl : 1 ≤ I.nl) (hz : I.z 0 = 0) (hr : ∀ i < I.nl, 0 < radius I.z0 (I.z i))
    (hn : ∀ i < I.nl, 1 ≤ I.refindx i) (ha : ¬ ((89 ≤ I.angle ∧ I.angle ≤ 91) ∨ (-91 ≤ I.angle ∧ I.angle ≤ -89)))
    (hb : ∀ i b, (raySlant I).dtau i = some b → |b| < 2 * π) (hU : ∀ i, 1 ≤ i → i < I.nl → ¬ Unreachable I i) :
    ∃ ds, rayTracing I = some ds ∧ ∀ i d, 1 ≤ i → i < I.nl → ds i = some d → |I.z i - I.z (i - 1)| ≤ d := by
  have hrs : 0 < radius I.z0 0 := by have := hr 0 (by omega); rwa [hz] at this
  obtain ⟨ds, k, e, k1, k2, h3, -, h5, -⟩ := C21_slant_ge hnl hn ha hr hb
  have : k = I.nl := by
    by_contra hne
    have hk : k < I.nl := by omega
    have hpos := hn k hk
    exact hU k k1 hk ((ducting_iff hz hrs (by linarith) (hr k hk)).1 (h3 hk))
  subst this
  exact ⟨ds, e, h5⟩

/-! ## The simulation -/

section
variable {X : Sky} {c : ℕ}

theorem opacity_cut {f : ℕ → ℝ} {c n : ℕ} (hc : c ≤ n) (h : ∀ i, c < i → i ≤ n → f i = 0) : opacityBelow f n = opacityBelow f c := by
  unfold opacityBelow
  refine (Finset.sum_subset (Finset.Icc_subset_Icc_right hc) fun i h1 h2 => h i ?_ (Finset.mem_Icc.1 h1).2).symm
  by_contra hlt
  exact h2 (Finset.mem_Icc.2 ⟨(Finset.mem_Icc.1 h1).1, by omega⟩)

theorem sky_cut {B τ : ℕ → ℝ} {c n : ℕ} (hc : c ≤ n) (h : ∀ i, c < i → i ≤ n → τ i = 0) :
    skyRadiance B τ n = skyRadiance B τ c := by
  unfold skyRadiance
  refine (Finset.sum_subset (Finset.Icc_subset_Icc_right hc) fun i h1 h2 => ?_).symm
  obtain ⟨a1, a2⟩ := Finset.mem_Icc.1 h1
  have hi : c < i := by
    by_contra hlt
    exact h2 (Finset.mem_Icc.2 ⟨a1, by omega⟩)
  have : transDown τ (i - 1) = transDown τ i := by
    unfold transDown
    rw [opacity_cut (c := i - 1) (n := i) (by omega) fun j _ _ => h j (by omega) (by omega)]
  rw [this, sub_self, mul_zero]

theorem up_cut {B τ : ℕ → ℝ} {c n : ℕ} (hc : c ≤ n) (h : ∀ i, c < i → i ≤ n → τ i = 0) :
    upRadiance B τ n 0 = upRadiance B τ c 0 := by
  have key : ∀ i, i ≤ c → opacityAbove τ n i = opacityAbove τ c i := fun i hi => by
    unfold opacityAbove
    refine (Finset.sum_subset (Finset.Icc_subset_Icc_right hc) fun j h1 h2 => h j ?_ (Finset.mem_Icc.1 h1).2).symm
    by_contra hlt
    exact h2 (Finset.mem_Icc.2 ⟨(Finset.mem_Icc.1 h1).1, by omega⟩)
  have zero : ∀ i, c ≤ i → opacityAbove τ n i = 0 := fun i hi => by
    unfold opacityAbove
    exact Finset.sum_eq_zero fun j hj => h j (by have := (Finset.mem_Icc.1 hj).1; omega) (Finset.mem_Icc.1 hj).2
  unfold upRadiance
  rw [← Finset.sum_subset (Finset.Icc_subset_Icc_right (a := 0 + 1) hc)]
  · refine Finset.sum_congr rfl fun i hi => ?_
    obtain ⟨a1, a2⟩ := Finset.mem_Icc.1 hi
    unfold transUp
    rw [key i a2, key (i - 1) (by omega)]
  · intro i h1 h2
    obtain ⟨a1, a2⟩ := Finset.mem_Icc.1 h1
    have hi : c < i := by
      by_contra hlt
      exact h2 (Finset.mem_Icc.2 ⟨a1, by omega⟩)
    unfold transUp
    rw [zero i (by omega), zero (i - 1) (by omega), sub_self, mul_zero]

/-- Layers without length might as well be left out. -/
theorem row_cut {above : Bool} {ε ν θ : ℝ} (hc : c ≤ X.top) (h : ∀ i, c < i → i ≤ X.top → X.len i = 0) :
    skyRow X above ε ν θ none = skyRow { X with top := c } above ε ν θ none := by
  have hg : ∀ a i, c < i → i ≤ X.top → X.gas a i = 0 := fun a i h1 h2 => by unfold Sky.gas; rw [h i h1 h2, mul_zero]
  have hd : ∀ a i, c < i → i ≤ X.top → X.cloud a i = 0 := fun a i h1 h2 => by unfold Sky.cloud; rw [h i h1 h2, mul_zero]
  have hl : ∀ i, c < i → i ≤ X.top → X.layer i = 0 := fun i h1 h2 => by
    unfold Sky.layer; rw [hg _ i h1 h2, hg _ i h1 h2, hd _ i h1 h2, hd _ i h1 h2]; norm_num
  have e0 : X.opacity = { X with top := c }.opacity := opacity_cut hc hl
  have e1 : X.air above ν = { X with top := c }.air above ν := by
    unfold Sky.air
    cases above
    · simp only [Bool.false_eq_true, if_false]
      exact sky_cut hc hl
    · simp only [if_true]
      exact up_cut hc hl
  have e2 : X.background above ε ν = { X with top := c }.background above ε ν := rfl
  unfold skyRow
  rw [e0, e1, e2]
  congr 2
  · exact opacity_cut hc (hg X.wet)
  · exact opacity_cut hc (hg X.dry)
  · exact opacity_cut hc (hd X.liq)
  · exact opacity_cut hc (hd X.ice)

end

/-- The ray of angle `k`. -/
noncomputable def rayOf (S : Settings) (k : ℕ) : RayIn := ⟨S.nl, S.z, fun i => 1 + levelN S i / 10 ^ 6, S.angles k, S.z0⟩

/-- **C109.** The simulation: when the ray of each angle cannot reach some level, the table is complete, without a trace of the
failure, and is the table for the atmosphere without that level and everything above it. -/
theorem C109_table {I : Inst} {ε : ℕ → ℝ} {len : ℕ → ℕ → ℝ} {G : Composition} (hS : FullInput I.set ε len)
    (hcl : I.set.cloudy = false) (hno : NoClouds I.out) (hg : Uses g G W O)
    (hfm : G.water ∈ ["R23SD", "R24"] → ∀ j < I.set.nf, I.set.frq j < 4 * ckdStep)
    (hpos : GasesAbsorb I.set G) (hrt : I.set.rayTracing = true) (hz : I.set.z 0 = 0)
    (hr : ∀ i < I.set.nl, 0 < radius I.set.z0 (I.set.z i)) (hN : ∀ i < I.set.nl, 0 ≤ levelN I.set i)
    (ha : ∀ k < I.set.nang, 0 < I.set.angles k ∧ I.set.angles k < 89) {D : ℕ → ℕ}
    (hD : ∀ k < I.set.nang, 1 ≤ D k ∧ D k < I.set.nl ∧ Unreachable (rayOf I.set k) (D k)) :
    (execute shipped g I).1 = .ok ((List.range I.set.nang).flatMap fun k => (List.range I.set.nf).map fun j =>
      skyRow { (fullScene I.set).sky G (len k) (I.set.frq j) with top := D k - 1 } I.set.satellite (ε j) (I.set.frq j)
        (I.set.angles k) none) := by
  have hq : UsesLiquid g I.set G := ⟨fun h => by simp [hcl] at h, fun i _ h => by simp [fullScene, hcl] at h⟩
  rw [C98_table hS (Or.inr hno) hg hq hfm hpos]
  congr 1
  refine List.flatMap_congr fun k hk => List.map_congr_left fun j hj => ?_
  rw [List.mem_range] at hk hj
  have e0 : cloudOf I.set = none := by unfold cloudOf; rw [hcl]; rfl
  rw [e0]
  obtain ⟨d1, d2, d3⟩ := hD k hk
  have htop : (fullScene I.set).top = I.set.nl - 1 := rfl
  refine row_cut (X := (fullScene I.set).sky G (len k) (I.set.frq j)) (by show _ ≤ (fullScene I.set).top; omega) fun i h1 h2 => ?_
  have h2' : i ≤ I.set.nl - 1 := h2
  obtain ⟨e, rho, hv, he⟩ := vapor_eq hS.good.ice
  obtain ⟨d, hp, hl⟩ := hS.path k hk e rho hv
  have hN' : (fun i => (refractivity1 (I.set.p i) (I.set.tk i) (e i)).2.2) = fun i => 1 + levelN I.set i / 10 ^ 6 := by
    funext i
    rw [he i]
    simp only [levelN, refractivity1]
    norm_num
    ring
  obtain ⟨-, ds, hds, h0⟩ := C109_cut (I := rayOf I.set k) hz hr
    (fun i hi => by have := hN i hi; simp only [rayOf]; linarith [show 0 ≤ levelN I.set i / 10 ^ 6 by positivity])
    (by have := ha k hk; simp only [rayOf]; rintro (⟨h, -⟩ | ⟨-, h⟩) <;> linarith) d1 d2 d3
  rw [hN'] at hp
  unfold pathOf at hp
  rw [if_pos hrt] at hp
  have hds' : rayTracing ⟨I.set.nl, I.set.z, fun i => 1 + levelN I.set i / 10 ^ 6, I.set.angles k, I.set.z0⟩ = some ds := hds
  rw [hds'] at hp
  simp only at hp
  split_ifs at hp
  cases hp
  show len k i = 0
  rw [(hl i (by omega)).1]
  simp only [h0 i (show D k ≤ i by omega), Option.getD_some]

/-- **C109.** Trapped in the lowest layer: the path has no length at all. -/
theorem C109_lowest {I : RayIn} (hz : I.z 0 = 0) (hr : ∀ i < I.nl, 0 < radius I.z0 (I.z i))
    (hn : ∀ i < I.nl, 1 ≤ I.refindx i) (ha : ¬ ((89 ≤ I.angle ∧ I.angle ≤ 91) ∨ (-91 ≤ I.angle ∧ I.angle ≤ -89)))
    (hD : 1 < I.nl) (hU : Unreachable I 1) : rayTracing I = some fun _ => some 0 := by
  rw [(C109_cut hz hr hn ha le_rfl hD hU).1]
  have hz' : ¬ nearZenith I.angle := ha
  unfold rayTracing
  rw [if_neg (by push Not; intro i hi; exact hn i (lt_trans hi hD)), if_neg hz']
  unfold raySlant
  rw [forRangeE_of_le le_rfl]
  rfl

/-- **C109.** Seen from the ground such a sky is empty: every row shows the cosmic background and no opacity, whatever the
temperatures, the humidity and the gases. -/
theorem C109_vanishes {I : Inst} {ε : ℕ → ℝ} {len : ℕ → ℕ → ℝ} {G : Composition} (hS : FullInput I.set ε len)
    (hcl : I.set.cloudy = false) (hno : NoClouds I.out) (hg : Uses g G W O)
    (hfm : G.water ∈ ["R23SD", "R24"] → ∀ j < I.set.nf, I.set.frq j < 4 * ckdStep)
    (hpos : GasesAbsorb I.set G) (hrt : I.set.rayTracing = true) (hz : I.set.z 0 = 0)
    (hr : ∀ i < I.set.nl, 0 < radius I.set.z0 (I.set.z i)) (hN : ∀ i < I.set.nl, 0 ≤ levelN I.set i)
    (ha : ∀ k < I.set.nang, 0 < I.set.angles k ∧ I.set.angles k < 89) (hn : 1 < I.set.nl) (hsat : I.set.satellite = false)
    (hD : ∀ k < I.set.nang, Unreachable (rayOf I.set k) 1) :
    (execute shipped g I).1 = .ok ((List.range I.set.nang).flatMap fun k => (List.range I.set.nf).map fun _ =>
      { tbtotal := some 2.728, tbatm := some 0, tmr := none, tmrcld := some 0, tauwet := some 0, taudry := some 0,
        tauliq := some 0, tauice := some 0, angle := I.set.angles k }) := by
  rw [C109_table hS hcl hno hg hfm hpos hrt hz hr hN ha (D := fun _ => 1) fun k hk => ⟨le_rfl, hn, hD k hk⟩]
  congr 1
  refine List.flatMap_congr fun k hk => List.map_congr_left fun j hj => ?_
  rw [List.mem_range] at hk hj
  have hf := hS.good.frq j hj
  have hq : 0 < quantum (I.set.frq j) := by unfold quantum; positivity
  have e : temperature (I.set.frq j) (blackBody (I.set.frq j) 2.728) = 2.728 := by
    have h1 : 1 < exp (quantum (I.set.frq j) / 2.728) := one_lt_exp_iff.2 (by positivity)
    unfold temperature blackBody
    rw [if_neg (one_div_ne_zero (by linarith)), one_div_one_div, add_sub_cancel, log_exp]
    field_simp
  unfold skyRow
  simp [hsat, Sky.background, Sky.opacity, Sky.air, opacityBelow, skyRadiance, behind, e, meanTemperature]
  simp [temperature]

/-! ## A concrete input -/

/-- Three levels of dry air, 100 m apart, each 40 K warmer than the one below, seen from the ground at a tenth of a degree. -/
noncomputable def ductS : Settings :=
  { slantS with z := fun i => i / 10, p := fun _ => 1000, tk := fun i => 288 + 40 * i, angles := fun _ => 0.1, satellite := false }

theorem ductS_N : (269 ≤ levelN ductS 0 ∧ levelN ductS 0 ≤ 270) ∧ (235 ≤ levelN ductS 1 ∧ levelN ductS 1 ≤ 238) ∧
    0 ≤ levelN ductS 2 := by
  refine ⟨?_, ?_, ?_⟩ <;> norm_num [levelN, refractivity1, ductS, slantS, realS, demoS]

theorem ductS_duct (k : ℕ) : Unreachable (rayOf ductS k) 1 := by
  obtain ⟨⟨h1, -⟩, ⟨-, h2⟩, -⟩ := ductS_N
  have hc : 1 - 0.000002 ≤ cos (rad 0.1) := by
    have := one_sub_sq_div_two_le_cos (x := rad 0.1)
    have h3 : rad 0.1 ≤ 0.002 := by have := pi_lt_d2; unfold rad; norm_num at this ⊢; linarith
    have h4 : 0 ≤ rad 0.1 := by have := pi_pos; unfold rad; positivity
    have h5 : rad 0.1 ^ 2 ≤ 0.002 ^ 2 := pow_le_pow_left₀ h4 h3 2
    norm_num at h5 this ⊢
    linarith
  have e1 : radius ductS.z0 (ductS.z 1) = 6371.049 := by norm_num [radius, ductS, slantS, realS, demoS]
  have e2 : radius ductS.z0 0 = 6370.949 := by norm_num [radius, ductS, slantS, realS, demoS]
  show (1 + levelN ductS 1 / 10 ^ 6) * radius ductS.z0 (ductS.z 1) ≤
    (1 + levelN ductS 0 / 10 ^ 6) * radius ductS.z0 0 * cos (rad 0.1)
  rw [e1, e2]
  calc (1 + levelN ductS 1 / 10 ^ 6) * 6371.049 ≤ (1 + 238 / 10 ^ 6) * 6371.049 := by gcongr
    _ ≤ (1 + 269 / 10 ^ 6) * 6370.949 * (1 - 0.000002) := by norm_num
    _ ≤ (1 + levelN ductS 0 / 10 ^ 6) * 6370.949 * cos (rad 0.1) := by gcongr

theorem ductS_hyp : (∀ i < ductS.nl, 0 < radius ductS.z0 (ductS.z i)) ∧ (∀ i < ductS.nl, 0 ≤ levelN ductS i) := by
  obtain ⟨⟨h1, -⟩, ⟨h2, -⟩, h3⟩ := ductS_N
  constructor
  · intro i _
    have : (0:ℝ) ≤ i := Nat.cast_nonneg i
    have e : radius ductS.z0 (ductS.z i) = 6370.949 + i / 10 := by norm_num [radius, ductS, slantS, realS, demoS]
    rw [e]
    positivity
  · intro i hi
    have : i < 3 := hi
    interval_cases i <;> linarith

theorem ductS_path : ∀ k < ductS.nang, ∀ e rho, vapor ductS.tk ductS.rh ductS.ice = .ok (e, rho) →
    ∃ d, pathOf ductS (fun i => (refractivity1 (ductS.p i) (ductS.tk i) (e i)).2.2) k = .ok d ∧
      ∀ i < ductS.nl, (fun _ _ : ℕ => (0 : ℝ)) k i = d i ∧ 0 ≤ d i := by
  intro k hk e rho hv
  obtain ⟨e', rho', hv', he⟩ := vapor_eq (S := ductS) rfl
  rw [hv] at hv'
  cases hv'
  have hN' : (fun i => (refractivity1 (ductS.p i) (ductS.tk i) (e i)).2.2) = fun i => 1 + levelN ductS i / 10 ^ 6 := by
    funext i
    rw [he i]
    simp only [levelN, refractivity1]
    norm_num
    ring
  have h := C109_lowest (I := rayOf ductS k) (by norm_num [rayOf, ductS]) ductS_hyp.1
    (fun i hi => by have := ductS_hyp.2 i hi; simp only [rayOf]; linarith [show 0 ≤ levelN ductS i / 10 ^ 6 by positivity])
    (by norm_num [rayOf, ductS]) (show 1 < 3 by norm_num) (ductS_duct k)
  have h' : rayTracing ⟨ductS.nl, ductS.z, fun i => 1 + levelN ductS i / 10 ^ 6, ductS.angles k, ductS.z0⟩ =
    some fun _ => some 0 := h
  refine ⟨fun _ => 0, ?_, fun i _ => ⟨rfl, le_rfl⟩⟩
  rw [hN']
  unfold pathOf
  rw [if_pos (by rfl), h']
  simp

/-- At a tenth of a degree above the horizon the simulated air of 288 to 368 K is as cold as space. -/
example (g : Globals) (h1 : g.sel.h2o = some "R19") (h2 : g.sel.o2 = some "R24") (h3 : g.sel.n2 = some "R03")
    (h4 : g.sel.o3 = none) : ∃ rows r, (execute shipped g ⟨ductS, Store.zero⟩).1 = .ok rows ∧ rows[0]? = some r ∧
      r.tbtotal = some (2.728 : ℝ) ∧ ∀ i < ductS.nl, 288 ≤ ductS.tk i := by
  obtain ⟨W, hW⟩ : ∃ W, waterFile "R19" = some W := Option.isSome_iff_exists.1 ((C35_names _).2 (by decide))
  obtain ⟨O, hO⟩ : ∃ O, oxygenFile "R24" = some O := Option.isSome_iff_exists.1 ((C37_names _).2 (by decide))
  obtain ⟨cw, nw, hw⟩ := waterColumns_exist hW
  obtain ⟨co, no, ho⟩ := oxygenColumns_exist hO
  let G : Composition := ⟨⟨"R19", cw, nw, "R24", co, no, "R03"⟩, none, fun _ _ => 0, 0, "R19"⟩
  have hu : Uses g G W O := ⟨h1, h2, h3, by simp [G, n2Runs], hW, hO, hw, ho, by
    simp only [OzoneLoaded, G]
    intro m hm
    rw [h4] at hm
    cases hm⟩
  have hT : ∀ i : ℕ, 288 ≤ ductS.tk i := fun i => by
    have : (0:ℝ) ≤ i := Nat.cast_nonneg i
    simp only [ductS]
    linarith
  have hgood : GoodInput ductS :=
    { levels := by decide
      emissivity := slantS_good.emissivity
      frq := slantS_good.frq
      tk := fun i _ => by have := hT i; linarith
      p := fun i _ => by norm_num [ductS]
      rh := slantS_good.rh
      vapour := fun i _ => by norm_num [ductS, slantS]
      ice := rfl
      amu := rfl
      path := fun k hk e rho hv => by
        obtain ⟨d, a, b⟩ := ductS_path k hk e rho hv
        exact ⟨d, a, fun i hi => (b i hi).2⟩ }
  have hS : FullInput ductS (fun _ => 1) fun _ _ => 0 :=
    ⟨hgood, ductS_path, fun h => by simp [ductS, slantS, realS] at h, fun j hj => by
      have : j < 2 := hj
      interval_cases j <;> simp [ductS, slantS, realS, demoS]⟩
  have main := C109_vanishes (I := ⟨ductS, Store.zero⟩) hS rfl (fun _ _ => ⟨rfl, rfl, rfl, rfl, rfl⟩) hu (by simp [G])
    (C98_absorb hgood hu (by simp [G]) (by simp [G]) (fun d hd => by simp [ductS, slantS, realS, demoS] at hd) (by simp [G]))
    rfl (by norm_num [ductS]) ductS_hyp.1 ductS_hyp.2 (fun k _ => by norm_num [ductS]) (by decide) rfl fun k _ => ductS_duct k
  exact ⟨_, _, main, by rfl, rfl, fun i _ => hT i⟩

end Verif.Props
