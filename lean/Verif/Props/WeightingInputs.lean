import Verif.Props.Construct
import Verif.Props.WeightingSky

/-!
# C105: the simulator behind the weighting functions

The other theorems on C105 speak of the run on `w.settings frq`.  Here that run is tied to what a user does by hand:
construct a simulator on the interpolated profile, set the geometry and the emissivity.
-/

namespace Verif.Props

open Verif.Py Verif.Model

theorem arange_get {stop step : ℝ} {i : ℕ} {x : ℝ} (h : (npArange0 stop step)[i]? = some x) : x = i * step := by
  unfold npArange0 at h
  rw [List.getElem?_map, Option.map_eq_some_iff] at h
  obtain ⟨k, hk, rfl⟩ := h
  obtain ⟨hi, rfl⟩ := List.getElem?_eq_some_iff.1 hk
  simp

/-- Take a simulator constructed (ray tracing on, clear sky, no ozone, no model name) on the height grid, pressure,
temperature and humidity of the object, on its frequencies and on its one elevation angle; give it the geometry
and the emissivity of the object through the setters.  The construction succeeds and leaves the arrays as they
are, both setters accept, and the settings are those of the run behind the weighting functions. -/
theorem C105_inputs {w : WF} {frq : List ℝ} {stop step : ℝ} (hstep : 0 < step) (hgrid : w.zinterp = npArange0 stop step)
    (hne : w.zinterp ≠ []) (hp : w.pinterp ≠ []) {fl : Flip} {h : Heap} {a : CtorArgs} (az : h a.z = w.zinterp)
    (ap : h a.p = w.pinterp) (at' : h a.t = w.tinterp) (arh : h a.rh = w.rhinterp) (af : h a.frq = frq)
    (aa : h a.angles = [w.angle]) (ao : a.o3n = none) (am : a.amu = none) (ab : a.absmdl = "") (ar : a.rayTracing = true)
    (ac : a.cloudy = false) :
    ∃ s s₁ s₂, construct fl h a = (.ok s, h) ∧ setSatellite s (.bool w.satellite) = (.ok (), s₁) ∧
      setEmissivity s₁ (.float w.emissivity) = (.ok (), s₂) ∧
      (∀ k < (s₂.settings h).nang, (w.settings frq).angles k = (s₂.settings h).angles k) ∧
      s₂.settings h = { w.settings frq with angles := (s₂.settings h).angles } := by
  have hnr : ¬ Repeats (h a.z) := by
    rintro ⟨i, x, h1, h2⟩
    rw [az, hgrid] at h1 h2
    have e1 := arange_get h1
    have e2 := arange_get h2
    push_cast at e2
    nlinarith
  obtain ⟨z0, zs, hzs⟩ := List.exists_cons_of_ne_nil hne
  have hz0 : z0 = 0 := by
    have : (npArange0 stop step)[0]? = some z0 := by rw [← hgrid, hzs]; rfl
    simpa using arange_get this
  subst hz0
  have hw : h.write a.z ((h a.z).map (· - 0)) = h := by
    funext b
    unfold Heap.write
    by_cases hb : b = a.z
    · subst hb; simp
    · simp [Function.update_of_ne hb]
  rw [az] at hw
  have hc : ∃ s, construct fl h a = (.ok s, h) ∧ s = ⟨a.z, a.p, a.t, a.rh, a.frq, a.angles, a.o3n, a.amu, w.zinterp.length,
      (h a.frq).length, (h a.angles).length, 0, a.rayTracing, a.fromSat, a.cloudy, false,
      List.replicate (h a.frq).length 1, none, none⟩ := by
    rw [(construct_eq fl h a).2 hnr]
    unfold ctorTail
    rw [if_neg (by rw [ap]; exact hp), az]
    simp only [hzs, ab, ne_eq, not_true, if_false]
    rw [← hzs, hw]
    exact ⟨_, rfl, rfl⟩
  obtain ⟨s, hc, rfl⟩ := hc
  refine ⟨_, _, _, hc, rfl, rfl, ?_, ?_⟩
  · intro k hk
    have hk' : k < (h a.angles).length := hk
    rw [aa] at hk'
    obtain rfl : k = 0 := by simpa using hk'
    simp [SimObj.settings, WF.settings, aa]
  · simp [SimObj.settings, WF.settings, az, ap, at', arh, af, aa, ao, am, ar, ac, hzs]

theorem forRangeE_below {ρ σ : Type*} {f f' : ℕ → σ → Except ρ σ} {n : ℕ} (h : ∀ i < n, f i = f' i) (s : σ) :
    forRangeE 0 n f s = forRangeE 0 n f' s := by
  induction n with
  | zero => rw [forRangeE_of_le le_rfl, forRangeE_of_le le_rfl]
  | succ n ih =>
    rw [forRangeE_succ (Nat.zero_le _), forRangeE_succ (Nat.zero_le _), ih fun i hi => h i (by omega), h n (by omega)]

theorem pathOf_angles {S : Settings} {b : Val} {k : ℕ} (h : S.angles k = b k) (n : Val) :
    pathOf { S with angles := b } n k = pathOf S n k := by
  unfold pathOf
  simp only [h]

/-- A run reads the angles it was given and no others. -/
theorem execute_angles (A : AbsRoutines) (g : Globals) {S : Settings} {b : Val} (h : ∀ k < S.nang, S.angles k = b k)
    (o : Store) : execute A g ⟨{ S with angles := b }, o⟩ = execute A g ⟨S, o⟩ := by
  have hb (e rho u v n : Val) : ∀ k < S.nang, angleBody A { S with angles := b } e rho u v n k = angleBody A S e rho u v n k := by
    intro k hk
    funext s
    unfold angleBody
    rw [pathOf_angles (h k hk)]
    rfl
  have ht (o : Store) : table { S with angles := b } o = table S o := by
    unfold table
    refine List.flatMap_congr fun k hk => ?_
    simp only [h k (List.mem_range.1 hk)]
  unfold execute
  simp only [ht]
  cases initLineList A g with
  | error x => rfl
  | ok g' =>
    simp only
    cases vapor S.tk S.rh S.ice with
    | error x => rfl
    | ok er =>
      simp only
      rw [forRangeE_below (hb er.1 er.2 _ _ _)]

/-- The weighting functions are made from the opacities and absorption coefficients of the simulator that a user
constructs on the grid and sets by hand: that simulator's run is the run on `w.settings frq` in the table, in every
stored array and in the state left behind; its exceptions are those of `generate_wf`; and if all its opacities are
finite, the matrix returned is computed from its arrays. -/
theorem C105_same_run {w : WF} {frq : List ℝ} {stop step : ℝ} (hstep : 0 < step) (hgrid : w.zinterp = npArange0 stop step)
    (hne : w.zinterp ≠ []) (hp : w.pinterp ≠ []) {fl : Flip} {h : Heap} {a : CtorArgs} (az : h a.z = w.zinterp)
    (ap : h a.p = w.pinterp) (at' : h a.t = w.tinterp) (arh : h a.rh = w.rhinterp) (af : h a.frq = frq)
    (aa : h a.angles = [w.angle]) (ao : a.o3n = none) (am : a.amu = none) (ab : a.absmdl = "") (ar : a.rayTracing = true)
    (ac : a.cloudy = false) (hf : w.frequencies = some frq) (A : AbsRoutines) (lastO2 : String) (g : Globals) :
    ∃ s s₁ s₂, construct fl h a = (.ok s, h) ∧ setSatellite s (.bool w.satellite) = (.ok (), s₁) ∧
      setEmissivity s₁ (.float w.emissivity) = (.ok (), s₂) ∧
      (∀ g o, execute A g ⟨s₂.settings h, o⟩ = execute A g ⟨w.settings frq, o⟩) ∧
      (∀ x t, execute A (wfSelect lastO2 w.model g) ⟨s₂.settings h, Store.zero⟩ = (.error x, t) →
        w.generate A lastO2 g = (.error x, t.g)) ∧
      ∀ rows t, execute A (wfSelect lastO2 w.model g) ⟨s₂.settings h, Store.zero⟩ = (.ok rows, t) →
        ∀ m, (List.range frq.length).mapM (fun j => (t.out.cell j 0).wfRow w.zinterp.length) = some m →
          ∀ r, wfCore w.satellite w.zinterp (m.map Prod.fst) (m.map Prod.snd) = some r →
          w.generate A lastO2 g = (.ok (some r), t.g) := by
  obtain ⟨s, s₁, s₂, h1, h2, h3, h4, h5⟩ := C105_inputs (frq := frq) hstep hgrid hne hp (fl := fl) az ap at' arh af aa ao am ab ar ac
  have hn : (s₂.settings h).nang = (w.settings frq).nang := by rw [h5]
  have hsame (g : Globals) (o : Store) : execute A g ⟨s₂.settings h, o⟩ = execute A g ⟨w.settings frq, o⟩ := by
    rw [h5, execute_angles A _ (fun k hk => h4 k (hn ▸ hk))]
  refine ⟨s, s₁, s₂, h1, h2, h3, hsame, fun x t hrun => ?_, fun rows t hrun m hm r hr => ?_⟩
  · rw [hsame] at hrun
    unfold WF.generate
    rw [hf]
    simp only [if_neg hp, hrun]
  · rw [hsame] at hrun
    have hm' : (List.range frq.length).mapM (fun j => (t.out.cell j 0).wfRow (w.settings frq).nl) = some m := hm
    unfold WF.generate
    rw [hf]
    simp only [if_neg hp, hrun, hm', hr]

/-- Five levels up to 2 km seen at 40 degrees over a surface of emissivity 0.6. -/
noncomputable def slantWF : WF :=
  ⟨npArange0 2.5 0.5, [1000, 950, 900, 850, 800], [300, 297, 294, 291, 288], [0.5, 0.5, 0.4, 0.4, 0.3], some [22, 31], true,
    0.6, "R24", 40, none⟩

example (fl : Flip) : ∃ (h : Heap) (a : CtorArgs) (s s₁ s₂ : SimObj), construct fl h a = (.ok s, h) ∧
    setSatellite s (.bool true) = (.ok (), s₁) ∧ setEmissivity s₁ (.float 0.6) = (.ok (), s₂) ∧
    (s₂.settings h).es = [0.6, 0.6] ∧ (slantWF.settings [22, 31]).angles 0 = 40 := by
  let h : Heap := fun b => if b = 0 then slantWF.zinterp else if b = 1 then slantWF.pinterp else if b = 2 then
    slantWF.tinterp else if b = 3 then slantWF.rhinterp else if b = 4 then [22, 31] else [40]
  obtain ⟨s, s₁, s₂, h1, h2, h3, h4, h5⟩ := C105_inputs (w := slantWF) (frq := [22, 31]) (stop := 2.5) (step := 0.5)
    (by norm_num) rfl (by
      intro hn
      have := congrArg List.length hn
      simp only [slantWF, npArange0, List.length_map, List.length_range, List.length_nil, Nat.ceil_eq_zero] at this
      norm_num at this) (by simp [slantWF]) (fl := fl) (h := h) (a := ⟨0, 1, 2, 3, 4, 5, none, none, "", true, true, false⟩)
    rfl rfl rfl rfl rfl rfl rfl rfl rfl rfl rfl
  refine ⟨h, _, s, s₁, s₂, h1, h2, h3, ?_, rfl⟩
  rw [h5]
  rfl

theorem demoWF_grid : demoWF.zinterp = npArange0 3 1 := by
  have : ⌈(3 : ℝ) / 1⌉₊ = 3 := by norm_num
  unfold npArange0
  rw [this]
  simp [demoWF, List.range_succ]

/-- The run of a hand-made simulator on three levels completes. -/
example (fl : Flip) : ∃ (h : Heap) (a : CtorArgs) (s s₁ s₂ : SimObj) (rows : List Row), construct fl h a = (.ok s, h) ∧
    setSatellite s (.bool true) = (.ok (), s₁) ∧ setEmissivity s₁ (.float 1) = (.ok (), s₂) ∧
    (execute demoA (wfSelect "R24" "R24" demoG) ⟨s₂.settings h, Store.zero⟩).1 = .ok rows := by
  let h : Heap := fun b => if b = 0 then demoWF.zinterp else if b = 1 then demoWF.pinterp else if b = 2 then
    demoWF.tinterp else if b = 3 then demoWF.rhinterp else if b = 4 then [22, 31] else [90]
  have hsel : Selected demoA (wfSelect "R24" demoWF.model demoG).sel :=
    ⟨⟨_, _, rfl, rfl⟩, ⟨_, _, rfl, rfl⟩, ⟨_, rfl⟩, ⟨_, rfl⟩⟩
  obtain ⟨rows, hrun⟩ := execute_total_path demoA_total hsel (I := ⟨demoWF.settings [22, 31], Store.zero⟩) rfl
    (by norm_num [WF.settings, demoWF]) (by simp [WF.settings]) (fun h => by cases h)
    (fun e rho hv k hk => by
      obtain rfl : k = 0 := by simp [WF.settings] at hk; exact hk
      obtain ⟨d, h, _⟩ := demoWF_path e rho hv
      exact ⟨d, h⟩)
  obtain ⟨s, s₁, s₂, h1, h2, h3, h4, -⟩ := C105_same_run (w := demoWF) (frq := [22, 31]) one_pos demoWF_grid
    (by simp [demoWF]) (by simp [demoWF]) (fl := fl) (h := h) (a := ⟨0, 1, 2, 3, 4, 5, none, none, "", true, true, false⟩)
    rfl rfl rfl rfl rfl rfl rfl rfl rfl rfl rfl rfl demoA "R24" demoG
  refine ⟨h, _, s, s₁, s₂, rows, h1, h2, h3, ?_⟩
  rw [h4]
  exact hrun

end Verif.Props
