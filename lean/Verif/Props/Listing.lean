import Verif.Model.Listing
import Verif.Props.Dispatch
import Verif.Props.WeightingSky
import Verif.Props.Ozone

/-!
# The listed models are the models that run (C106), settings of weighting functions (C107)
-/

namespace Verif.Props

open Verif.Model Verif.Py

/-! ## C106 -/

/-- Listed under a gas. -/
def Listed (gas m : String) : Prop := ∃ l, implementedModels.lookup gas = some l ∧ m ∈ l

theorem listed_water (m : String) : Listed "WaterVapour" m ↔ m ∈ ["R98", "R03", "R16", "R17", "R18", "R19", "R19SD", "R20",
    "R20SD", "R21SD", "R22SD", "R23SD", "R24", "MWL24"] := by
  have e : implementedModels.lookup "WaterVapour" = some (waterGroups.map Prod.fst) := rfl
  have e' : waterGroups.map Prod.fst = ["R98", "R03", "R16", "R17", "R18", "R19", "R19SD", "R20", "R20SD", "R21SD", "R22SD",
    "R23SD", "R24", "MWL24"] := rfl
  unfold Listed
  rw [e, e']
  simp

theorem listed_oxygen (m : String) : Listed "Oxygen" m ↔ m ∈ ["R98", "R03", "R16", "R17", "R18", "R19", "R19SD", "R20",
    "R20SD", "R22", "R23", "R24"] := by
  have e : implementedModels.lookup "Oxygen" = some (oxygenGroups.map Prod.fst) := rfl
  have e' : oxygenGroups.map Prod.fst = ["R98", "R03", "R16", "R17", "R18", "R19", "R19SD", "R20", "R20SD", "R22", "R23",
    "R24"] := rfl
  unfold Listed
  rw [e, e']
  simp

theorem listed_ozone (m : String) : Listed "Ozone" m ↔ m ∈ ["R18", "R22", "R23"] := by
  have e : implementedModels.lookup "Ozone" = some (ozoneGroups.map Prod.fst) := rfl
  have e' : ozoneGroups.map Prod.fst = ["R18", "R22", "R23"] := rfl
  unfold Listed
  rw [e, e']
  simp

/-- A listed ozone model can be loaded, an unlisted one cannot. -/
theorem C106_ozone (g : Globals) :
    (∀ m, g.sel.o3 = some m → Listed "Ozone" m → ∃ F, ozoneFile m = some F ∧
      ozoneSetLL g = .ok { g with o3ll := reloadLL F g.o3ll }) ∧
    ((∀ m, g.sel.o3 = some m → ¬ Listed "Ozone" m) → ozoneSetLL g = .error .other) := by
  have e : implementedModels.lookup "Ozone" = some (ozoneGroups.map Prod.fst) := rfl
  have hmem (m : String) : m ∈ ozoneGroups.map Prod.fst ↔ Listed "Ozone" m := by
    unfold Listed; rw [e]; simp
  refine ⟨fun m hm hl => ?_, fun h => ?_⟩
  · obtain ⟨F, hF⟩ := Option.isSome_iff_exists.1 ((C38_names m).2 (by
      rw [listed_ozone] at hl; simpa using hl))
    refine ⟨F, hF, ?_⟩
    unfold ozoneSetLL
    rw [e, hm]
    simp only [hF]
    rw [if_pos ((hmem m).2 hl)]
  · unfold ozoneSetLL
    rw [e]
    cases hm : g.sel.o3 with
    | none => rfl
    | some m =>
      simp only
      rw [if_neg fun h' => h m hm ((hmem m).1 h')]

/-- **C106.** Any combination of a listed water vapour model, a listed oxygen model and, after loading it, a listed ozone
model completes a run of any sensible input; for nitrogen any name serves that is listed for water vapour or oxygen. -/
theorem C106_runs {g : Globals} {I : Inst} {mw mo mn mz : String} (hI : GoodInput I.set) (hw : Listed "WaterVapour" mw)
    (ho : Listed "Oxygen" mo) (hn : Listed "WaterVapour" mn ∨ Listed "Oxygen" mn) (hz : Listed "Ozone" mz)
    (hfm : mw ∈ ["R23SD", "R24"] → ∀ j < I.set.nf, I.set.frq j < 4 * ckdStep) (hcl : I.set.cloudy = false) :
    ∃ g', ozoneSetLL { g with sel := { g.sel with h2o := some mw, o2 := some mo, n2 := some mn, o3 := some mz } } = .ok g' ∧
      ∃ rows, (execute shipped g' I).1 = .ok rows := by
  obtain ⟨F, hF, hload⟩ := (C106_ozone
    { g with sel := { g.sel with h2o := some mw, o2 := some mo, n2 := some mn, o3 := some mz } }).1 mz rfl hz
  refine ⟨_, hload, C32_completes hI (mw := mw) (mo := mo) (mn := mn) rfl rfl rfl ((listed_water _).1 hw)
    ((listed_oxygen _).1 ho) ?_ (fun _ => ⟨mz, F, g.o3ll, hF, rfl⟩) hfm (fun h => by simp [hcl] at h)
    (fun h => by simp [hcl] at h)⟩
  rw [listed_water, listed_oxygen] at hn
  simp only [n2Runs, List.mem_cons, List.not_mem_nil, or_false] at hn ⊢
  tauto

example (g : Globals) : ∃ g', ozoneSetLL
      { g with sel := { g.sel with h2o := some "MWL24", o2 := some "R22", n2 := some "R98", o3 := some "R22" } } = .ok g' ∧
    ∃ rows, (execute shipped g' ⟨realS false, Store.zero⟩).1 = .ok rows :=
  C106_runs (realS_good false) ((listed_water _).2 (by decide)) ((listed_oxygen _).2 (by decide))
    (Or.inl ((listed_water _).2 (by decide))) ((listed_ozone _).2 (by decide)) (fun h => absurd h (by decide)) rfl

/-- **C106.** No other name does: with a water vapour or oxygen model that is not listed every run ends in `AbsModelError`. -/
theorem C106_only (g : Globals) (I : Inst) (h : (∀ m, g.sel.h2o = some m → ¬ Listed "WaterVapour" m) ∨
    (∀ m, g.sel.o2 = some m → ¬ Listed "Oxygen" m)) : (execute shipped g I).1 = .error .other := by
  refine C32_no_table g I (h.imp (fun h m hm => ?_) fun h m hm => ?_)
  · rw [← listed_water]; exact h m hm
  · rw [← listed_oxygen]; exact h m hm

/-- **C106.** One name for all gases (`init_absmdl`): a clear-sky run completes if and only if the name is in the lists of
both gases. -/
theorem C106_one_name (m : String) (g : Globals) {I : Inst} (hI : GoodInput I.set) (hcl : I.set.cloudy = false)
    (ho3 : OzoneReady g I.set.o3n) (hf : ∀ j < I.set.nf, I.set.frq j < 4 * ckdStep) :
    (∃ rows, (execute shipped (selected g m) I).1 = .ok rows) ↔ Listed "WaterVapour" m ∧ Listed "Oxygen" m := by
  constructor
  · rintro ⟨rows, hr⟩
    by_contra hno
    have := C106_only (selected g m) I (by
      by_cases h : Listed "WaterVapour" m
      · right
        rintro m' ⟨⟩ h'
        exact hno ⟨h, h'⟩
      · left
        rintro m' ⟨⟩
        exact h)
    rw [this] at hr
    cases hr
  · rintro ⟨h1, h2⟩
    refine C32_completes (g := selected g m) hI rfl rfl rfl ((listed_water _).1 h1) ((listed_oxygen _).1 h2) ?_ ho3
      (fun _ => hf) (fun h => by simp [hcl] at h) (fun h => by simp [hcl] at h)
    rw [listed_water] at h1
    simp only [n2Runs, List.mem_cons, List.not_mem_nil, or_false] at h1 ⊢
    tauto

/-- Listed names that cannot be given to `init_absmdl`. -/
theorem C106_one_name_refuted : (∃ m, Listed "WaterVapour" m ∧ ¬ Listed "Oxygen" m) ∧
    ∃ m, Listed "Oxygen" m ∧ ¬ Listed "WaterVapour" m :=
  ⟨⟨"R22SD", (listed_water _).2 (by decide), by rw [listed_oxygen]; decide⟩,
    ⟨"R22", (listed_oxygen _).2 (by decide), by rw [listed_water]; decide⟩⟩

/-- The names printed in the documentation of the listing are all listed, but it lacks six that are. -/
theorem C106_documentation :
    (∀ m ∈ ["R98", "R03", "R16", "R17", "R18", "R19", "R19SD", "R20", "R20SD", "R22"], Listed "Oxygen" m) ∧
    (∀ m ∈ ["R98", "R03", "R16", "R17", "R18", "R19", "R19SD", "R20", "R20SD", "R21SD", "R22SD"], Listed "WaterVapour" m) ∧
    (∀ m ∈ ["R18", "R22"], Listed "Ozone" m) ∧ Listed "Oxygen" "R23" ∧ Listed "Oxygen" "R24" ∧
    Listed "WaterVapour" "R23SD" ∧ Listed "WaterVapour" "R24" ∧ Listed "WaterVapour" "MWL24" ∧ Listed "Ozone" "R23" := by
  simp only [listed_oxygen, listed_water, listed_ozone]
  decide

/-- Weighting functions run with oxygen model R24. -/
theorem wf_call (A : AbsRoutines) (g : Globals) (w : WF) : w.call A g = w.generate A "R24" g := rfl

/-- **C106.** Weighting functions: since the oxygen model is replaced, exactly the models listed for water vapour can be used,
whether or not there is an oxygen model of that name; the process is left with oxygen model R24. -/
theorem C106_weighting {w : WF} {frq : List ℝ} (g : Globals) (hf : w.frequencies = some frq) (hz : w.zinterp.Nodup)
    (hp : w.pinterp ≠ []) (hI : GoodInput (w.settings frq)) (hfm : ∀ j < frq.length, frq.getD j 0 < 4 * ckdStep) :
    (Listed "WaterVapour" w.model → ∃ M g', w.call shipped g = (.ok (some M), g') ∧ M.length = frq.length ∧
      g'.sel = { g.sel with h2o := some w.model, n2 := some w.model, liq := some w.model, o2 := some "R24" }) ∧
    (¬ Listed "WaterVapour" w.model → ∃ g', w.call shipped g = (.error .other, g')) := by
  rw [wf_call]
  constructor
  · intro hl
    rw [listed_water] at hl
    obtain ⟨rows, hrun⟩ := C32_completes (g := wfSelect "R24" w.model g) (I := ⟨w.settings frq, Store.zero⟩) hI rfl rfl rfl
      hl (by decide) (by
        simp only [n2Runs, List.mem_cons, List.not_mem_nil, or_false] at hl ⊢
        tauto) (fun h => by simp [ozoneActive, WF.settings] at h) (fun _ => hfm) (fun h => by simp [WF.settings] at h)
      (fun h => by simp [WF.settings] at h)
    have hnl : 1 ≤ w.zinterp.length := hI.levels
    have hne : ∃ r g', w.generate shipped "R24" g = (.ok r, g') := by
      rcases hex : execute shipped (wfSelect "R24" w.model g) ⟨w.settings frq, Store.zero⟩ with ⟨q, s⟩
      rw [hex] at hrun
      obtain rfl : q = .ok rows := hrun
      unfold WF.generate
      simp only [hf, hex]
      rw [if_neg hp]
      cases List.mapM (fun j => Cell.wfRow (w.settings frq).nl (s.out.cell j 0)) (List.range frq.length) with
      | none => exact ⟨_, _, rfl⟩
      | some rws =>
        have hw : ∀ t a, ∃ m, wfCore w.satellite w.zinterp t a = some m := by
          intro t a
          have hzne : w.zinterp ≠ [] := by intro h; simp [h] at hnl
          unfold wfCore
          cases w.satellite with
          | true =>
            have h2 := List.getLast?_eq_getElem? (l := w.zinterp)
            have h3 := argminAbs_of hz (i := w.zinterp.length - 1) (by omega)
            rw [List.getElem?_eq_getElem (by omega)] at h2
            simp only [if_true, h2, h3, Option.bind_eq_bind, Option.bind_some, Option.pure_def]
            exact ⟨_, rfl⟩
          | false =>
            have h2 := List.head?_eq_getElem? (l := w.zinterp)
            have h3 := argminAbs_of hz (i := 0) (by omega)
            rw [List.getElem?_eq_getElem (by omega)] at h2
            simp only [Bool.false_eq_true, if_false, h2, h3, Option.bind_eq_bind, Option.bind_some, Option.pure_def]
            exact ⟨_, rfl⟩
        obtain ⟨m, hm⟩ := hw (rws.map Prod.fst) (rws.map Prod.snd)
        simp only [hm]
        exact ⟨_, _, rfl⟩
    obtain ⟨r, g', hgen⟩ := hne
    obtain ⟨n, tau, _, ⟨_, hr⟩, hg⟩ := C50_run hf hgen hz (hI.path 0 (by simp [WF.settings]))
    subst hr
    exact ⟨_, g', hgen, by simp [tab], hg⟩
  · intro hl
    have h := C106_only (wfSelect "R24" w.model g) ⟨w.settings frq, Store.zero⟩ (Or.inl (by rintro m ⟨⟩; exact hl))
    unfold WF.generate
    rcases hex : execute shipped (wfSelect "R24" w.model g) ⟨w.settings frq, Store.zero⟩ with ⟨q, s⟩
    rw [hex] at h
    obtain rfl : q = .error .other := h
    simp only [hf, hex]
    rw [if_neg hp]
    exact ⟨_, rfl⟩

/-- There is no oxygen model MWL24, so a simulation with this one name fails, but weighting functions can be computed; with R22,
listed for oxygen only, they cannot. -/
example (g : Globals) : (∃ M g', ({ groundWF with model := "MWL24" } : WF).call shipped g = (.ok (some M), g')) ∧
    (∃ g', ({ groundWF with model := "R22" } : WF).call shipped g = (.error .other, g')) ∧
    ¬ ∃ rows, (execute shipped (selected g "MWL24") ⟨realS false, Store.zero⟩).1 = .ok rows := by
  have hfm : ∀ j < ([22, 31] : List ℝ).length, ([22, 31] : List ℝ).getD j 0 < 4 * ckdStep := by
    intro j hj
    have : j < 2 := hj
    interval_cases j <;> norm_num [ckdStep]
  have h := fun m : String => C106_weighting (w := { groundWF with model := m }) (frq := [22, 31]) g rfl (by simp [groundWF, demoWF])
    (by simp [groundWF, demoWF]) groundWF_good hfm
  refine ⟨?_, (h "R22").2 (by rw [listed_water]; decide), ?_⟩
  · obtain ⟨M, g', h1, -⟩ := (h "MWL24").1 ((listed_water _).2 (by decide))
    exact ⟨M, g', h1⟩
  · rintro ⟨rows, hr⟩
    rw [C106_only (selected g "MWL24") _ (Or.inr (by rintro m ⟨⟩; rw [listed_oxygen]; decide))] at hr
    cases hr

/-! ## C107 -/

/-- **C107.** The geometry of weighting functions can be set to the two Python booleans and nothing else. -/
theorem C107_satellite (w : WF) (v : PyVal) :
    (∀ b, v = .bool b → w.setSatellite v = (.ok (), { w with satellite := b })) ∧
    ((∀ b, v ≠ .bool b) → w.setSatellite v = (.error .valueError, w)) := by
  constructor
  · rintro b rfl; rfl
  · intro h
    cases v with
    | bool b => exact absurd rfl (h b)
    | _ => rfl

/-- **C107.** The frequencies must be an array; a list of numbers is refused and the earlier frequencies stay. -/
theorem C107_frequencies (w : WF) (v : PyVal) :
    (∀ l, v = .ndarray l → w.setFrequencies v = (.ok (), { w with frequencies := some l })) ∧
    ((∀ l, v ≠ .ndarray l) → w.setFrequencies v = (.error .valueError, w)) := by
  constructor
  · rintro b rfl; rfl
  · intro h
    cases v with
    | ndarray b => exact absurd rfl (h b)
    | _ => rfl

/-- Assignments of a session with one object; those refused leave an exception that the user may catch. -/
def assignAll (w : WF) (l : List (Bool × PyVal)) : WF :=
  l.foldl (fun w a => if a.1 then (w.setSatellite a.2).2 else (w.setFrequencies a.2).2) w

/-- The frequencies of the last accepted assignment. -/
def lastArray (l : List (Bool × PyVal)) : Option (List ℝ) :=
  (l.filterMap fun a => match a with | (false, .ndarray f) => some f | _ => none).getLast?

/-- The geometry of the last accepted assignment. -/
def lastBool (l : List (Bool × PyVal)) : Option Bool :=
  (l.filterMap fun a => match a with | (true, .bool b) => some b | _ => none).getLast?

/-- **C107.** After any sequence of assignments to a new object the accepted ones have taken effect, the last one counting; the
profiles, the model name and the elevation angle are those of the constructor. -/
theorem C107_session {z p t rh : List ℝ} {step : ℝ} {w : WF} (hw : WF.new z p t rh step = .ok w) (l : List (Bool × PyVal)) :
    assignAll w l = { w with frequencies := lastArray l, satellite := (lastBool l).getD true } ∧ w.model = "R24" ∧
      w.angle = 90 ∧ w.emissivity = 1 ∧ w.bandpass = none := by
  have h0 : w.frequencies = none ∧ w.satellite = true ∧ w.model = "R24" ∧ w.angle = 90 ∧ w.emissivity = 1 ∧
      w.bandpass = none := by
    unfold WF.new at hw
    split at hw
    · cases hw
    · dsimp only at hw
      split_ifs at hw
      split at hw
      · cases hw
        exact ⟨rfl, rfl, rfl, rfl, rfl, rfl⟩
      · cases hw
  refine ⟨?_, h0.2.2⟩
  induction l using List.reverseRecOn with
  | nil => simp [assignAll, lastArray, lastBool, ← h0.1, ← h0.2.1]
  | append_singleton l a ih =>
    have e : assignAll w (l ++ [a]) = if a.1 then ((assignAll w l).setSatellite a.2).2
        else ((assignAll w l).setFrequencies a.2).2 := by simp [assignAll]
    rw [e, ih]
    unfold lastArray lastBool
    rw [List.filterMap_append, List.filterMap_append]
    rcases a with ⟨_ | _, v⟩ <;> cases v <;> simp [WF.setSatellite, WF.setFrequencies]

/-- **C107.** Asking for weighting functions before frequencies have been accepted is a `TypeError` and changes nothing. -/
theorem C107_unset {z p t rh : List ℝ} {step : ℝ} {w : WF} (hw : WF.new z p t rh step = .ok w) (l : List (Bool × PyVal))
    (hl : lastArray l = none) (A : AbsRoutines) (g : Globals) : (assignAll w l).call A g = (.error .typeError, g) := by
  rw [(C107_session hw l).1, wf_call, hl]
  rfl

example : lastArray [(false, .ndarray [22]), (false, .list [31]), (true, .npBool false)] = some [22] ∧
    lastBool [(false, .ndarray [22]), (false, .list [31]), (true, .npBool false)] = none := ⟨rfl, rfl⟩

end Verif.Props
