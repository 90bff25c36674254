import Verif.Props.FullSky
import Verif.Props.Weighting
import Verif.Lemmas.Trapezoid

/-!
# C105: what weighting functions weigh

Closed form of the weighting functions of a run; their integral, and that of the black-body radiance weighted by them, against
what the simulator computes.
-/

namespace Verif.Props

open Verif.Model Verif.Py Verif.Spec Verif.Lemmas Real

/-! ## The integral -/

/-- Transmittance from the side of layer `i` next to the observer. -/
noncomputable def nearSide (X : Sky) (above : Bool) (i : ℕ) : ℝ := X.transmittance above (if above then i else i - 1)

/-- **C105.** Weighted by the weighting functions and integrated along the path by the trapezoidal rule, the radiances of the
levels give the radiance of the air, up to a sum over the layers of products of two small quantities. -/
theorem C105_radiance {X : Sky} (hX : Sky.Sound X) (above : Bool) {b : ℕ → ℝ} (hb : ∀ i ≤ X.top, 0 ≤ b i) :
    |X.alongPath (fun i => X.weight above i * b i) -
      (if above then upRadiance b X.layer X.top 0 else skyRadiance b X.layer X.top)| ≤
      ∑ i ∈ Finset.Icc 1 X.top, X.layerError b (nearSide X above i) i := by
  cases above with
  | false =>
    simp only [Bool.false_eq_true, if_false]
    unfold Sky.alongPath skyRadiance
    rw [← Finset.sum_sub_distrib]
    refine (Finset.abs_sum_le_sum_abs _ _).trans (Finset.sum_le_sum fun i hi => ?_)
    rw [Finset.mem_Icc] at hi
    obtain ⟨k, rfl⟩ : ∃ k, i = k + 1 := ⟨i - 1, by omega⟩
    have h := trapezoid_layer (a0 := X.wet k + X.dry k) (a1 := X.wet (k + 1) + X.dry (k + 1)) (hX.len (k + 1) hi.2)
      (hX.layer (k + 1) hi.2) (transDown_pos (τ := X.layer) (i := k)).le (hb k (by omega)) (hb (k + 1) hi.2)
    rw [← transDown_succ] at h
    simpa [Sky.weight, Sky.transmittance, Sky.layerError, Sky.trapezoid, nearSide] using h
  | true =>
    simp only [if_true]
    unfold Sky.alongPath upRadiance
    rw [Nat.zero_add, ← Finset.sum_sub_distrib]
    refine (Finset.abs_sum_le_sum_abs _ _).trans (Finset.sum_le_sum fun i hi => ?_)
    rw [Finset.mem_Icc] at hi
    obtain ⟨k, rfl⟩ : ∃ k, i = k + 1 := ⟨i - 1, by omega⟩
    have h := trapezoid_layer (a0 := X.wet (k + 1) + X.dry (k + 1)) (a1 := X.wet k + X.dry k) (hX.len (k + 1) hi.2)
      (hX.layer (k + 1) hi.2) (transUp_pos (τ := X.layer) (n := X.top) (i := k + 1)).le (hb (k + 1) hi.2) (hb k (by omega))
    rw [← transUp_step (by omega : k < X.top), max_comm, abs_sub_comm (b k), abs_sub_comm (X.wet k + X.dry k),
      add_comm (X.wet (k + 1) + X.dry (k + 1)), add_comm (transUp X.layer X.top (k + 1) * _ * _)] at h
    simpa [Sky.weight, Sky.transmittance, Sky.layerError, Sky.trapezoid, nearSide] using h

/-- **C105.** The weighting functions integrate to the part of the background that the air absorbs. -/
theorem C105_integral {X : Sky} (hX : Sky.Sound X) (above : Bool) :
    |X.alongPath (X.weight above) - (1 - exp (-X.opacity))| ≤ ∑ i ∈ Finset.Icc 1 X.top, nearSide X above i *
      (|X.trapezoid i - X.layer i| + X.layer i ^ 3 / 12 +
        |X.wet i + X.dry i - (X.wet (i - 1) + X.dry (i - 1))| * X.len i / 4 * X.layer i) := by
  have h := C105_radiance hX above (b := fun _ => 1) fun _ _ => by norm_num
  rw [upRadiance_const _ (Nat.zero_le _), skyRadiance_const] at h
  simp only [mul_one, one_mul, Sky.layerError, max_self, sub_self, abs_zero, zero_add] at h
  cases above <;> simpa [transUp, transDown, opacityAbove_zero, Sky.opacity] using h

/-- C105: the first term of the error is of second order too.  A layer opacity differs from the trapezoidal rule by at most
the squared logarithmic change of the coefficient times a twelfth (and half of the threshold below which it counts as constant). -/
theorem C105_layer_mean {a b : ℝ} (ha : 0 < a) (hb : 0 < b) :
    |(a + b) / 2 - layerMean a b| ≤ (a + b) / 2 * log (b / a) ^ 2 / 12 + 5e-10 := by
  -- it is enough to know this for `a < b`
  have key {a b : ℝ} (ha : 0 < a) (hab : a < b) :
      0 ≤ (a + b) / 2 - (b - a) / log (b / a) ∧ (a + b) / 2 - (b - a) / log (b / a) ≤ (a + b) / 2 * log (b / a) ^ 2 / 12 := by
    have hb : 0 < b := ha.trans hab
    have hy : 0 < log (b / a) := log_pos (by rw [lt_div_iff₀ ha]; linarith)
    have hh : half (log (b / a)) = (b - a) / (b + a) := by
      unfold half
      rw [exp_neg, exp_log (by positivity)]
      field_simp
    have h1 := half_le hy.le
    have h2 := le_half hy.le
    rw [hh] at h1 h2
    have e : (b - a) / log (b / a) = (b - a) / (b + a) * (a + b) / log (b / a) := by field_simp; ring
    rw [e]
    constructor
    · rw [sub_nonneg, div_le_iff₀ hy]
      nlinarith
    · rw [sub_le_iff_le_add, ← sub_le_iff_le_add', le_div_iff₀ hy]
      nlinarith
  have hs : 0 ≤ (a + b) / 2 * log (b / a) ^ 2 / 12 := by positivity
  unfold layerMean
  split_ifs with h1 h2
  · have : |(a + b) / 2 - b| = |b - a| / 2 := by
      rw [show (a + b) / 2 - b = -((b - a) / 2) by ring, abs_neg, abs_div, abs_of_pos (by norm_num : (0:ℝ) < 2)]
    rw [this]
    norm_num at h1 ⊢
    linarith
  · rcases h2 with h | h <;> linarith
  · rcases lt_trichotomy a b with h | h | h
    · obtain ⟨k1, k2⟩ := key ha h
      rw [abs_of_nonneg k1]
      linarith
    · subst h; norm_num at h1
    · obtain ⟨k1, k2⟩ := key hb h
      have e : log (a / b) = -log (b / a) := by rw [← log_inv, inv_div]
      rw [e, show (a - b) / -log (b / a) = (b - a) / log (b / a) by rw [div_neg, ← neg_div, neg_sub], add_comm b a] at k1 k2
      rw [neg_sq] at k2
      rw [abs_of_nonneg k1]
      linarith

/-- The weights that the program finds for a satellite. -/
noncomputable def satelliteWeight (X : Sky) (j : ℕ) : ℝ := (if j = 0 then 1 else exp (-X.layer j)) * X.weight true j

/-- **C105.** The satellite weights of the program fall short of the weighting functions, and so do all integrals formed with
them: by up to the opacity of the thickest layer. -/
theorem C105_satellite_low {X : Sky} (hX : Sky.Sound X) {b : ℕ → ℝ} (hb : ∀ i ≤ X.top, 0 ≤ b i) {m : ℝ}
    (hm0 : 0 ≤ m) (hm : ∀ i ≤ X.top, X.layer i ≤ m) :
    exp (-m) * X.alongPath (fun i => X.weight true i * b i) ≤ X.alongPath (fun i => satelliteWeight X i * b i) ∧
    X.alongPath (fun i => satelliteWeight X i * b i) ≤ X.alongPath (fun i => X.weight true i * b i) := by
  have hw : ∀ i ≤ X.top, 0 ≤ X.weight true i * b i := fun i hi =>
    mul_nonneg (mul_nonneg (exp_pos _).le (add_nonneg (hX.wet i hi) (hX.dry i hi))) (hb i hi)
  have h1 : ∀ i ≤ X.top, exp (-m) * (X.weight true i * b i) ≤ satelliteWeight X i * b i ∧
      satelliteWeight X i * b i ≤ X.weight true i * b i := fun i hi => by
    unfold satelliteWeight
    rw [mul_assoc]
    have hle : exp (-m) ≤ (if i = 0 then 1 else exp (-X.layer i)) ∧ (if i = 0 then 1 else exp (-X.layer i)) ≤ 1 := by
      split_ifs
      · exact ⟨exp_le_one_iff.2 (by linarith), le_rfl⟩
      · exact ⟨exp_le_exp.2 (neg_le_neg (hm i hi)), exp_le_one_iff.2 (by have := hX.layer i hi; linarith)⟩
    exact ⟨mul_le_mul_of_nonneg_right hle.1 (hw i hi), mul_le_of_le_one_left (hw i hi) hle.2⟩
  unfold Sky.alongPath
  rw [Finset.mul_sum]
  constructor <;> refine Finset.sum_le_sum fun i hi => ?_
  · rw [Finset.mem_Icc] at hi
    have := (h1 i hi.2).1
    have := (h1 (i - 1) (by omega)).1
    have hl := hX.len i hi.2
    calc _ = (exp (-m) * (X.weight true (i - 1) * b (i - 1)) + exp (-m) * (X.weight true i * b i)) / 2 * X.len i := by ring
      _ ≤ _ := mul_le_mul_of_nonneg_right (by linarith) hl
  · rw [Finset.mem_Icc] at hi
    have := (h1 i hi.2).2
    have := (h1 (i - 1) (by omega)).2
    exact mul_le_mul_of_nonneg_right (by linarith) (hX.len i hi.2)

/-- One layer of opacity 1. -/
noncomputable def slab : Sky := ⟨1, fun _ => 280, fun _ => 0.25, fun _ => 0.75, fun _ => 0, fun _ => 0, fun _ => 1⟩

theorem slab_sound : Sky.Sound slab := by
  constructor <;> intro i _ <;> norm_num [slab]

theorem slab_layer (i : ℕ) : slab.layer i = 1 := by
  norm_num [Sky.layer, Sky.gas, Sky.cloud, layerMean, cloudMean, slab]

/-- C105: for the satellite weights of the program the error bound of `C105_integral` fails already for one layer. -/
theorem C105_satellite_refuted : ∃ X : Sky, Sky.Sound X ∧ ∑ i ∈ Finset.Icc 1 X.top, nearSide X true i *
      (|X.trapezoid i - X.layer i| + X.layer i ^ 3 / 12 +
        |X.wet i + X.dry i - (X.wet (i - 1) + X.dry (i - 1))| * X.len i / 4 * X.layer i) <
    |X.alongPath (satelliteWeight X) - (1 - exp (-X.opacity))| := by
  refine ⟨slab, slab_sound, ?_⟩
  have he : exp (-1) < 0.37 := by
    rw [exp_neg, inv_lt_comm₀ (exp_pos 1) (by norm_num)]
    have := exp_one_gt_d9
    norm_num at this ⊢
    linarith
  have ht : slab.top = 1 := rfl
  have hop : slab.opacity = 1 := by simp [Sky.opacity, ht, opacityBelow, slab_layer]
  have h0 : slab.weight true 0 = exp (-1) := by
    norm_num [Sky.weight, Sky.transmittance, transUp, opacityAbove, ht, slab_layer]
    norm_num [slab]
  have h1 : slab.weight true 1 = 1 := by
    norm_num [Sky.weight, Sky.transmittance, transUp, opacityAbove, ht, slab_layer]
    norm_num [slab]
  have hl : slab.len 1 = 1 := rfl
  have htr : slab.trapezoid 1 = 1 := by norm_num [Sky.trapezoid, slab]
  have hn : nearSide slab true 1 = 1 := by simp [nearSide, Sky.transmittance, transUp, opacityAbove, ht]
  simp only [ht, Finset.Icc_self, Finset.sum_singleton, hn, htr, slab_layer, hop, Sky.alongPath, satelliteWeight, h0, h1, hl]
  have hd : |slab.wet 1 + slab.dry 1 - (slab.wet (1 - 1) + slab.dry (1 - 1))| = 0 := by norm_num [slab]
  rw [hd]
  norm_num [h0, h1]
  rw [lt_abs]
  right
  norm_num at he ⊢
  linarith

/-- The bounds for this layer: with its weighting function the trapezoidal rule is off by at most a twelfth. -/
example : |slab.alongPath (slab.weight true) - (1 - exp (-1))| ≤ 1 / 12 := by
  have h := C105_integral slab_sound true
  have ht : slab.top = 1 := rfl
  have hop : slab.opacity = 1 := by simp [Sky.opacity, ht, opacityBelow, slab_layer]
  have htr : slab.trapezoid 1 = 1 := by norm_num [Sky.trapezoid, slab]
  have hn : nearSide slab true 1 = 1 := by simp [nearSide, Sky.transmittance, transUp, opacityAbove, ht]
  have hd : |slab.wet 1 + slab.dry 1 - (slab.wet (1 - 1) + slab.dry (1 - 1))| = 0 := by norm_num [slab]
  simp only [ht, Finset.Icc_self, Finset.sum_singleton, hn, htr, slab_layer, hop, hd] at h
  norm_num at h ⊢
  exact h

/-- Absorption of 0.1 and 0.2 Np/km at the two ends: the layer mean is within about 4 percent of the arithmetic one. -/
example : |(0.1 + 0.2) / 2 - layerMean 0.1 0.2| ≤ (0.1 + 0.2 : ℝ) / 2 * log (0.2 / 0.1) ^ 2 / 12 + 5e-10 :=
  C105_layer_mean (by norm_num) (by norm_num)

/-- The satellite weights of the program for the slab give between 37 % and all of the integral of the weighting function. -/
example : exp (-1) * slab.alongPath (fun i => slab.weight true i * 1) ≤ slab.alongPath (fun i => satelliteWeight slab i * 1) :=
  (C105_satellite_low slab_sound (b := fun _ => 1) (fun _ _ => by norm_num) (by norm_num) fun i _ => (slab_layer i).le).1

/-! ## The weighting functions of a run -/

/-- The layer opacities and coefficients kept by a clear-sky step. -/
theorem clear_layers {S : Settings} {e : Val} {d : ℕ → ℝ} {j : ℕ} {g : Globals} {c c' : Cell} {X : Sky} (hcl : S.cloudy = false)
    (hok : CellOk shipped S e (.ok d) j g c c') (hn : 1 ≤ S.nl) (hX : Sky.Sound X) (hC : Computes shipped S e d j g X)
    (hno : StaleEq Cell.zero c) : ∃ t : Val, c'.taulay = some t ∧ t 0 = 0 ∧ (∀ i, 1 ≤ i → i ≤ X.top → t i = X.layer i) ∧
      ∀ i ≤ X.top, c'.awet i = X.wet i ∧ c'.adry i = X.dry i := by
  have htop := hC.top
  obtain ⟨a, ha, h1, h2, hw, hd⟩ := hok.clear
  have hav := hC.clear a ha
  have gas {x y : ℕ → ℝ} (hxy : ∀ i < S.nl, x i = y i) (hy : ∀ i ≤ X.top, 0 ≤ y i) {o : Option ℝ} {v : Option Val}
      (h : integ true S.nl x (.ok d) 1 1 = .ok (o, v)) : ∃ u, v = some u ∧ u 0 = 0 ∧ ∀ i, 1 ≤ i → i ≤ X.top → u i = X.gas y i := by
    obtain ⟨-, u, h2, h3⟩ := integ_layers hn (v := fun i => layerMean (y (i - 1)) (y i)) (fun i p1 p2 => by
      rw [hxy i p2, hxy (i - 1) (by omega)]
      exact layerValue_mean (hy _ (by omega)) (hy i (by omega))) h
    rw [← htop] at h3
    subst h2
    exact ⟨u, rfl, integ_first h, fun i p1 p2 => by rw [h3 i p1 p2, ← hC.len i (by omega)]; rfl⟩
  obtain ⟨xw, pw, w0, vw⟩ := gas (fun i hi => by rw [hav i hi]) hX.wet hw
  obtain ⟨xd, pd, d0, vd⟩ := gas (fun i hi => by rw [hav i hi]) hX.dry hd
  have hst := hok.stale hcl
  have pl : c'.ptauliq = some fun _ => 0 := by rw [← hst.ptauliq, ← hno.ptauliq]; rfl
  have pi : c'.ptauice = some fun _ => 0 := by rw [← hst.ptauice, ← hno.ptauice]; rfl
  refine ⟨fun i => xw i + xd i + 0 + 0, by simp only [Cell.taulay, pw, pd, pl, pi], by simp [w0, d0], fun i p1 p2 => ?_,
    fun i hi => ?_⟩
  · have e1 := hC.none hcl i (by omega)
    have e2 := hC.none hcl (i - 1) (by omega)
    unfold Sky.layer Sky.cloud cloudMean
    beta_reduce
    rw [vw i p1 p2, vd i p1 p2, e1.1, e1.2, e2.1, e2.2]
    norm_num
  · rw [h1, h2]
    simp only [hav i (by omega), and_self]

/-- **C105.** The weighting functions of a clear sky are a formula of the inputs: for the ground the weighting functions of the
specification, for the satellite these times the transmittance of the layer below the level. -/
theorem C105_weights {w : WF} {frq : List ℝ} {lastO2 : String} {g : Globals} {W O : LineList} {ε : ℕ → ℝ} {len : ℕ → ℕ → ℝ}
    {G : Composition} (hf : w.frequencies = some frq) (hz : w.zinterp.Nodup) (hp : w.pinterp ≠ [])
    (hS : FullInput (w.settings frq) ε len) (hg : Uses (wfSelect lastO2 w.model g) G W O)
    (hfm : G.water ∈ ["R23SD", "R24"] → ∀ j < frq.length, frq.getD j 0 < 4 * ckdStep)
    (hpos : GasesAbsorb (w.settings frq) G) :
    ∃ g', w.generate shipped lastO2 g = (.ok (some (tab frq.length w.zinterp.length fun f j =>
      let X := (fullScene (w.settings frq)).sky G (len 0) (frq.getD f 0)
      if w.satellite then satelliteWeight X j else X.weight false j)), g') := by
  have hq : UsesLiquid (wfSelect lastO2 w.model g) (w.settings frq) G :=
    ⟨fun h => by simp [WF.settings] at h, fun i _ h => by simp [fullScene, WF.settings] at h⟩
  obtain ⟨hrun, hcells⟩ := full_cells (I := ⟨w.settings frq, Store.zero⟩) hS (Or.inr fun _ _ => ⟨rfl, rfl, rfl, rfl, rfl⟩) hg
    hq hfm hpos
  have hn := hS.good.levels
  obtain ⟨n, hnl⟩ : ∃ n, w.zinterp.length = n + 1 := ⟨w.zinterp.length - 1, by
    change 1 ≤ w.zinterp.length at hn; omega⟩
  have hcell : ∀ j, ∃ t : Val, t 0 = 0 ∧ (j < frq.length →
      (((execute shipped (wfSelect lastO2 w.model g) ⟨w.settings frq, Store.zero⟩).2.out).cell j 0).taulay = some t ∧
      let X := (fullScene (w.settings frq)).sky G (len 0) (frq.getD j 0)
      (∀ i, 1 ≤ i → i ≤ n → t i = X.layer i) ∧ ∀ i ≤ n,
        (((execute shipped (wfSelect lastO2 w.model g) ⟨w.settings frq, Store.zero⟩).2.out).cell j 0).awet i = X.wet i ∧
        (((execute shipped (wfSelect lastO2 w.model g) ⟨w.settings frq, Store.zero⟩).2.out).cell j 0).adry i = X.dry i) := by
    intro j
    by_cases hj : j < frq.length
    swap
    · exact ⟨fun _ => 0, rfl, fun h => absurd h hj⟩
    obtain ⟨e, d, g1, hok, -, -, hX, hC⟩ := hcells 0 (by simp [WF.settings]) j hj
    obtain ⟨t, h1, h2, h3, h4⟩ := clear_layers rfl hok hn hX hC ⟨rfl, rfl, rfl, rfl, rfl⟩
    have htop : ((fullScene (w.settings frq)).sky G (len 0) ((w.settings frq).frq j)).top = n := by
      change w.zinterp.length - 1 = n; omega
    rw [htop] at h3 h4
    exact ⟨t, h2, fun _ => ⟨h1, h3, h4⟩⟩
  choose tau h0 htau using hcell
  rcases hex : execute shipped (wfSelect lastO2 w.model g) ⟨w.settings frq, Store.zero⟩ with ⟨res, s⟩
  rw [hex] at hrun htau
  simp only at hrun htau
  subst hrun
  have hrows : ((List.range frq.length).mapM fun j => (s.out.cell j 0).wfRow (w.settings frq).nl) =
      some ((List.range frq.length).map fun j => ((List.range w.zinterp.length).map (tau j),
        (List.range w.zinterp.length).map fun i => (s.out.cell j 0).awet i + (s.out.cell j 0).adry i)) := by
    apply mapM_some
    intro j hj
    simp only [Cell.wfRow, (htau j (by simpa using hj)).1, Option.map_some, WF.settings]
  unfold WF.generate
  simp only [hf, if_neg hp, hex, hrows, List.map_map, Function.comp_def]
  have key : wfCore w.satellite w.zinterp ((List.range frq.length).map fun j => (List.range w.zinterp.length).map (tau j))
      ((List.range frq.length).map fun j => (List.range w.zinterp.length).map fun i =>
        (s.out.cell j 0).awet i + (s.out.cell j 0).adry i) = some (tab frq.length w.zinterp.length fun f j =>
      let X := (fullScene (w.settings frq)).sky G (len 0) (frq.getD f 0)
      if w.satellite then satelliteWeight X j else X.weight false j) := by
    have htop (f : ℕ) : ((fullScene (w.settings frq)).sky G (len 0) (frq.getD f 0)).top = n := by
      change w.zinterp.length - 1 = n; omega
    cases hs : w.satellite with
    | false =>
      have h1 := C50_ground (nf := frq.length) hz hnl tau (fun j i => (s.out.cell j 0).awet i + (s.out.cell j 0).adry i) h0
      unfold tab at h1 ⊢
      rw [hnl, h1]
      congr 1
      refine List.map_congr_left fun f hf => List.map_congr_left fun j hj => ?_
      rw [List.mem_range] at hf hj
      obtain ⟨-, p1, p2⟩ := htau f hf
      simp only [Bool.false_eq_true, if_false, weightSpec, Sky.weight, Sky.transmittance, transDown, opacityBetween,
        opacityBelow, Nat.zero_min, Nat.zero_max]
      rw [(p2 j (by omega)).1, (p2 j (by omega)).2, show Finset.Ioc 0 j = Finset.Icc 1 j from rfl,
        Finset.sum_congr rfl fun i hi => p1 i (Finset.mem_Icc.1 hi).1 (by have := (Finset.mem_Icc.1 hi).2; omega)]
    | true =>
      have h1 := C50_satellite (nf := frq.length) hz hnl tau (fun j i => (s.out.cell j 0).awet i + (s.out.cell j 0).adry i)
      unfold tab at h1 ⊢
      rw [hnl, h1]
      congr 1
      refine List.map_congr_left fun f hf => List.map_congr_left fun j hj => ?_
      rw [List.mem_range] at hf hj
      obtain ⟨-, p1, p2⟩ := htau f hf
      have hj' : j ≤ n := by omega
      simp only [if_true]
      rw [(C50_satellite_shift (tau f) (fun i => (s.out.cell f 0).awet i + (s.out.cell f 0).adry i) hj').1]
      simp only [satelliteWeight, weightSpec, Sky.weight, Sky.transmittance, transUp, opacityBetween, opacityAbove, if_true, htop f,
        min_eq_right hj', max_eq_left hj']
      rw [(p2 j hj').1, (p2 j hj').2, show Finset.Ioc j n = Finset.Icc (j + 1) n by ext; simp,
        Finset.sum_congr rfl fun i hi => p1 i (by have := (Finset.mem_Icc.1 hi).1; omega) (Finset.mem_Icc.1 hi).2]
      congr 1
      by_cases hj0 : j = 0
      · subst hj0; rw [h0]; simp
      · rw [if_neg hj0, p1 j (by omega) hj']
  rw [key]
  exact ⟨_, rfl⟩

/-- **C105.** What a user gets: the weighting functions of a ground-based instrument, applied to the black-body radiances of the
levels, reproduce the brightness temperature of the atmosphere that the simulator reports for the same inputs. -/
theorem C105_ground_run {w : WF} {frq : List ℝ} {lastO2 : String} {g : Globals} {W O : LineList} {ε : ℕ → ℝ}
    {len : ℕ → ℕ → ℝ} {G : Composition} (hf : w.frequencies = some frq) (hz : w.zinterp.Nodup) (hp : w.pinterp ≠ [])
    (hsat : w.satellite = false) (hS : FullInput (w.settings frq) ε len) (hg : Uses (wfSelect lastO2 w.model g) G W O)
    (hfm : G.water ∈ ["R23SD", "R24"] → ∀ j < frq.length, frq.getD j 0 < 4 * ckdStep)
    (hpos : GasesAbsorb (w.settings frq) G) :
    ∃ M g' rows, w.generate shipped lastO2 g = (.ok (some M), g') ∧
      (execute shipped (wfSelect lastO2 w.model g) ⟨w.settings frq, Store.zero⟩).1 = .ok rows ∧
      ∀ f < frq.length, ∃ m r R, M[f]? = some m ∧ rows[f]? = some r ∧ r.tbatm = some (temperature (frq.getD f 0) R) ∧
        let X := (fullScene (w.settings frq)).sky G (len 0) (frq.getD f 0)
        let B := fun i => blackBody (frq.getD f 0) (X.T i)
        |X.alongPath (fun i => m.getD i 0 * B i) - R| ≤
          ∑ i ∈ Finset.Icc 1 X.top, X.layerError B (nearSide X false i) i := by
  have hq : UsesLiquid (wfSelect lastO2 w.model g) (w.settings frq) G :=
    ⟨fun h => by simp [WF.settings] at h, fun i _ h => by simp [fullScene, WF.settings] at h⟩
  have hno : NoClouds Store.zero := fun _ _ => ⟨rfl, rfl, rfl, rfl, rfl⟩
  obtain ⟨g', hgen⟩ := C105_weights hf hz hp hS hg hfm hpos
  have hrun := C98_table (I := ⟨w.settings frq, Store.zero⟩) hS (Or.inr hno) hg hq hfm hpos
  obtain ⟨-, hcells⟩ := full_cells (I := ⟨w.settings frq, Store.zero⟩) hS (Or.inr hno) hg hq hfm hpos
  refine ⟨_, g', _, hgen, hrun, fun f hf => ?_⟩
  obtain ⟨-, -, -, -, -, -, hX, -⟩ := hcells 0 (by simp [WF.settings]) f hf
  have hn := hS.good.levels
  refine ⟨(List.range w.zinterp.length).map (((fullScene (w.settings frq)).sky G (len 0) (frq.getD f 0)).weight false),
    skyRow ((fullScene (w.settings frq)).sky G (len 0) (frq.getD f 0)) (w.settings frq).satellite (ε f) (frq.getD f 0)
      ((w.settings frq).angles 0) (cloudOf (w.settings frq)),
    ((fullScene (w.settings frq)).sky G (len 0) (frq.getD f 0)).air false (frq.getD f 0), ?_, ?_, ?_, ?_⟩
  · unfold tab
    rw [List.getElem?_map, List.getElem?_range hf, hsat]
    rfl
  · have : (w.settings frq).nang = 1 := rfl
    have hnf : (w.settings frq).nf = frq.length := rfl
    simp only [this, hnf, List.range_one, List.flatMap_cons, List.flatMap_nil, List.append_nil]
    rw [List.getElem?_map, List.getElem?_range hf]
    rfl
  · have : (w.settings frq).satellite = false := hsat
    rw [this]
    rfl
  · have h := C105_radiance hX false (b := fun i => blackBody (frq.getD f 0)
      (((fullScene (w.settings frq)).sky G (len 0) (frq.getD f 0)).T i)) fun i hi => by
        rw [← blackBody_eq]
        exact (tk2b_pos (hvkOf_pos (hS.good.frq f hf)) (hX.T i hi)).le
    simp only [Bool.false_eq_true, if_false] at h
    refine le_trans (le_of_eq ?_) h
    congr 2
    unfold Sky.alongPath
    have htop : ((fullScene (w.settings frq)).sky G (len 0) (frq.getD f 0)).top = w.zinterp.length - 1 := rfl
    change 1 ≤ w.zinterp.length at hn
    have hget : ∀ i, i ≤ ((fullScene (w.settings frq)).sky G (len 0) (frq.getD f 0)).top →
        (List.map (((fullScene (w.settings frq)).sky G (len 0) (frq.getD f 0)).weight false)
          (List.range w.zinterp.length)).getD i 0 =
          ((fullScene (w.settings frq)).sky G (len 0) (frq.getD f 0)).weight false i := fun i hi => by
      rw [List.getD_eq_getElem?_getD, List.getElem?_map, List.getElem?_range (by omega)]
      rfl
    refine Finset.sum_congr rfl fun i hi => ?_
    rw [Finset.mem_Icc] at hi
    have hi2 : i ≤ w.zinterp.length - 1 := hi.2
    beta_reduce
    rw [hget i hi.2, hget (i - 1) (by rw [htop]; omega)]
    rfl

/-- Three levels of dry air seen from the ground with the water vapour and nitrogen of R19. -/
noncomputable def groundWF : WF := { demoWF with model := "R19", satellite := false }

theorem groundWF_path : GoodPath (groundWF.settings [22, 31]) 0 := demoWF_path

theorem groundWF_good : GoodInput (groundWF.settings [22, 31]) where
  levels := by simp [WF.settings, groundWF, demoWF]
  emissivity := by simp [WF.settings]
  frq j hj := by
    have : j < 2 := hj
    interval_cases j <;> norm_num [WF.settings]
  tk i hi := by
    have : i < 3 := hi
    interval_cases i <;> norm_num [WF.settings, groundWF, demoWF]
  p i hi := by
    have : i < 3 := hi
    interval_cases i <;> norm_num [WF.settings, groundWF, demoWF]
  rh i hi := by
    have : i < 3 := hi
    interval_cases i <;> norm_num [WF.settings, groundWF, demoWF]
  vapour i hi := by
    have : i < 3 := hi
    interval_cases i <;> norm_num [WF.settings, groundWF, demoWF]
  ice := rfl
  amu := rfl
  path k hk := by
    obtain rfl : k = 0 := by simpa [WF.settings] using hk
    exact groundWF_path

/-- Its weighting functions are those of the formula and reproduce the brightness temperature. -/
example (g : Globals) (h3 : g.sel.o3 = none) : ∃ M g' rows G, groundWF.generate shipped "R24" g = (.ok (some M), g') ∧
    (execute shipped (wfSelect "R24" "R19" g) ⟨groundWF.settings [22, 31], Store.zero⟩).1 = .ok rows ∧
    ∃ m r R, M[1]? = some m ∧ rows[1]? = some r ∧ r.tbatm = some (temperature 31 R) ∧
      let X := (fullScene (groundWF.settings [22, 31])).sky G (fun i => groundWF.zinterp.getD i 0 - groundWF.zinterp.getD (i - 1) 0) 31
      let B := fun i => blackBody 31 (X.T i)
      |X.alongPath (fun i => m.getD i 0 * B i) - R| ≤ ∑ i ∈ Finset.Icc 1 X.top, X.layerError B (nearSide X false i) i := by
  obtain ⟨W, hW⟩ : ∃ W, waterFile "R19" = some W := Option.isSome_iff_exists.1 ((C35_names _).2 (by decide))
  obtain ⟨O, hO⟩ : ∃ O, oxygenFile "R24" = some O := Option.isSome_iff_exists.1 ((C37_names _).2 (by decide))
  obtain ⟨cw, nw, hw⟩ := waterColumns_exist hW
  obtain ⟨co, no, ho⟩ := oxygenColumns_exist hO
  let G : Composition := ⟨⟨"R19", cw, nw, "R24", co, no, "R19"⟩, none, fun _ _ => 0, 0, "R19"⟩
  have hu : Uses (wfSelect "R24" groundWF.model g) G W O := ⟨rfl, rfl, rfl, by simp [G, n2Runs], hW, hO, hw, ho, by
    simp only [OzoneLoaded, G]
    intro m hm
    have : g.sel.o3 = some m := hm
    rw [h3] at this
    cases this⟩
  have hS : FullInput (groundWF.settings [22, 31]) (fun _ => 1)
      fun _ i => groundWF.zinterp.getD i 0 - groundWF.zinterp.getD (i - 1) 0 :=
    ⟨groundWF_good, C98_zenith rfl (fun k _ => by norm_num [WF.settings, groundWF, demoWF])
      (by simp [WF.settings, groundWF, demoWF]) (fun i hi => by
        have : i + 1 < 3 := hi
        have : i < 2 := by omega
        interval_cases i <;> norm_num [WF.settings, groundWF, demoWF]) (fun e rho hv i _ => by
        have he : e i = 0 := by
          unfold vapor at hv
          simp only [WF.settings, Bool.false_eq_true, if_false, Except.ok.injEq, Prod.mk.injEq] at hv
          rw [← hv.1]
          have : groundWF.rhinterp.getD i 0 = 0 := by
            rcases i with _ | _ | _ | i <;> simp [groundWF, demoWF]
          beta_reduce
          rw [this, zero_mul]
        rw [he]
        exact demoWF_index i), fun h => by simp [WF.settings] at h, fun j hj => by
      have : j < 2 := hj
      interval_cases j <;> simp [WF.settings, groundWF, demoWF]⟩
  obtain ⟨M, g', rows, h1, h2, h4⟩ := C105_ground_run rfl (by simp [groundWF, demoWF]) (by simp [groundWF, demoWF]) rfl hS hu
    (by simp [G]) (C98_absorb groundWF_good hu (by simp [G]) (by simp [G]) (fun d hd => by simp [WF.settings] at hd) (by simp [G]))
  exact ⟨M, g', rows, G, h1, h2, by simpa using h4 1 (by simp)⟩

end Verif.Props
