import Verif.Spec.History
import Verif.Props.Simulator

/-!
# C27: what a run depends on, over all histories of a process
-/

namespace Verif.Props

open Verif.Py Verif.Spec Verif.Model

variable {A : AbsRoutines}

theorem initLineList_keeps (g : Globals) : (match initLineList A g with
    | .ok g1 => g1.sel = g.sel ∧ g1.o3ll = g.o3ll
    | .error x => x.2.sel = g.sel ∧ x.2.o3ll = g.o3ll) := by
  unfold initLineList
  cases g.sel.h2o.bind A.h2oFile with
  | none => exact ⟨rfl, rfl⟩
  | some w =>
    simp only
    cases g.sel.o2.bind A.o2File with
    | none => exact ⟨rfl, rfl⟩
    | some o => exact ⟨rfl, rfl⟩

/-- A run never changes the selection; it changes the ozone line list only through `amu`. -/
theorem execute_keeps (g : Globals) (I : Inst) :
    (execute A g I).2.g.sel = g.sel ∧ (I.set.amu = none → (execute A g I).2.g.o3ll = g.o3ll) := by
  have h0 := initLineList_keeps (A := A) g
  unfold execute
  cases hl : initLineList A g with
  | error x => rw [hl] at h0; exact ⟨h0.1, fun _ => h0.2⟩
  | ok g1 =>
    rw [hl] at h0
    simp only at h0 ⊢
    cases hv : vapor I.set.tk I.set.rh I.set.ice with
    | error x => exact ⟨h0.1, fun _ => h0.2⟩
    | ok er =>
      obtain ⟨e, rho⟩ := er
      simp only
      have key : ∀ (ds : Path) (k : ℕ) (s : RunState), s.g.sel = g.sel ∧ (I.set.amu = none → s.g.o3ll = g.o3ll) →
          (leftRun (forRangeE 0 I.set.nf (freqBody A I.set e ds k) s)).g.sel = g.sel ∧
          (I.set.amu = none → (leftRun (forRangeE 0 I.set.nf (freqBody A I.set e ds k) s)).g.o3ll = g.o3ll) := by
        intro ds k s hs
        rcases forRangeE_inv (f := freqBody A I.set e ds k) (s := s) (lo := 0) (hi := I.set.nf)
          (I := fun _ t => t.g.sel = g.sel ∧ (I.set.amu = none → t.g.o3ll = g.o3ll))
          (E := fun x => x.2.g.sel = g.sel ∧ (I.set.amu = none → x.2.g.o3ll = g.o3ll))
          (Nat.zero_le _) hs (by
            intro j u _ hj hu
            have hw : ∀ es : ℝ, (if I.set.nl = 0 then { u.g with emissivity := es }
                else amuApply I.set.amu I.set.o3n { u.g with emissivity := es }).sel = g.sel ∧
                (I.set.amu = none → (if I.set.nl = 0 then { u.g with emissivity := es }
                else amuApply I.set.amu I.set.o3n { u.g with emissivity := es }).o3ll = g.o3ll) := by
              intro es
              split_ifs
              · exact hu
              · refine ⟨by rw [amuApply_sel]; exact hu.1, fun h => ?_⟩
                rw [h]; exact hu.2 h
            unfold freqBody
            split
            · exact Or.inr ⟨_, rfl, hu⟩
            · rename_i es _
              simp only
              split
              · exact Or.inr ⟨_, rfl, hw es⟩
              · exact Or.inl ⟨_, rfl, hw es⟩) with ⟨t, h, ht⟩ | ⟨x, h, hx⟩
        · rw [h]; exact ht
        · rw [h]; exact hx
      rcases forRangeE_inv (f := angleBody A I.set e rho
          (fun i => (refractivity1 (I.set.p i) (I.set.tk i) (e i)).2.1)
          (fun i => (refractivity1 (I.set.p i) (I.set.tk i) (e i)).1)
          (fun i => (refractivity1 (I.set.p i) (I.set.tk i) (e i)).2.2))
        (s := ⟨{ g1 with fromSat := I.set.satellite }, I.out⟩) (lo := 0) (hi := I.set.nang)
        (I := fun _ t => t.g.sel = g.sel ∧ (I.set.amu = none → t.g.o3ll = g.o3ll))
        (E := fun x => x.2.g.sel = g.sel ∧ (I.set.amu = none → x.2.g.o3ll = g.o3ll))
        (Nat.zero_le _) ⟨h0.1, fun _ => h0.2⟩ (by
          intro k u _ hk hu
          unfold angleBody
          simp only
          split
          · exact Or.inr ⟨_, rfl, hu⟩
          · rename_i q _
            have := key (pathOf I.set (fun i => (refractivity1 (I.set.p i) (I.set.tk i) (e i)).2.2) k) k
              ⟨u.g, u.out.setPath k q⟩ hu
            generalize forRangeE 0 I.set.nf _ _ = r at this ⊢
            cases r with
            | ok t => exact Or.inl ⟨t, rfl, this⟩
            | error x => exact Or.inr ⟨x, rfl, this⟩) with ⟨t, h, ht⟩ | ⟨x, h, hx⟩
      · rw [h]; exact ht
      · rw [h]; exact hx

theorem latest_append (f : Op → Option String) (h : List Op) (op : Op) :
    latest f (h ++ [op]) = (f op).or (latest f h) := by
  unfold latest
  rw [List.reverse_append, List.reverse_singleton, List.singleton_append, List.findSome?_cons]
  cases f op <;> rfl

theorem after_append (h : List Op) (op : Op) :
    World.after A (h ++ [op]) = (World.after A h).step A op := by
  simp [World.after]

theorem own_append (i : ℕ) (h : List Op) (op : Op) : own i (h ++ [op]) = (own i h).step i op := by
  simp [own]

/-- The selection in force is the one of the most recent selection calls, on whichever simulator they were made. -/
theorem C27_selection (h : List Op) : (World.after A h).g.sel = lastSel h := by
  induction h using List.reverseRecOn with
  | nil => rfl
  | append_singleton h op ih =>
    rw [after_append]
    unfold lastSel
    simp only [latest_append]
    cases op with
    | run i =>
      simp only [World.step]
      cases (World.after A h).sims[i]? with
      | none => exact ih
      | some I => exact (execute_keeps _ _).1.trans ih
    | modify i f =>
      simp only [World.step]
      cases (World.after A h).sims[i]? with
      | none => exact ih
      | some I => exact ih
    | _ => simp only [World.step, ih]; rfl

/-- Simulator `i` in the world: its settings are its own ones, and clouds are left on it only by its own runs. -/
theorem own_inv (i : ℕ) (h : List Op) :
    (own i h).created = (World.after A h).sims.length ∧
    ((World.after A h).sims[i]?).map (·.set) = (own i h).settings ∧
    ((own i h).ranCloudy = false → ∀ I, (World.after A h).sims[i]? = some I → NoClouds I.out) := by
  induction h using List.reverseRecOn with
  | nil => exact ⟨rfl, rfl, fun _ I hI => by simp [World.after, World.init] at hI⟩
  | append_singleton h op ih =>
    obtain ⟨h1, h2, h3⟩ := ih
    rw [after_append, own_append]
    set w := World.after A h with hw
    set o := own i h with ho
    cases op with
    | construct S =>
      simp only [World.step, Own.step]
      refine ⟨by simp [h1], ?_, ?_⟩
      · rcases lt_trichotomy i w.sims.length with hi | hi | hi
        · rw [List.getElem?_append_left hi, if_neg (by omega)]; exact h2
        · rw [if_pos (by omega), hi]; simp
        · rw [if_neg (by omega), List.getElem?_eq_none (by simp; omega)]
          rw [List.getElem?_eq_none (by omega)] at h2
          exact h2
      · intro hc I hI
        rcases lt_trichotomy i w.sims.length with hi | hi | hi
        · rw [List.getElem?_append_left hi] at hI; exact h3 hc I hI
        · rw [hi] at hI
          simp only [List.getElem?_concat_length, Option.some.injEq] at hI
          subst hI
          exact fun _ _ => StaleEq.refl _
        · rw [List.getElem?_eq_none (by simp; omega)] at hI; cases hI
    | modify k f =>
      simp only [World.step, Own.step]
      cases hk : w.sims[k]? with
      | none =>
        simp only
        split_ifs with hki
        · subst hki
          rw [hk] at h2
          refine ⟨h1, ?_, fun _ I hI => by rw [hk] at hI; cases hI⟩
          rw [hk, ← h2]; rfl
        · exact ⟨h1, h2, h3⟩
      | some J =>
        simp only
        by_cases hki : k = i
        · subst hki
          have hlt : k < w.sims.length := (List.getElem?_eq_some_iff.1 hk).1
          rw [if_pos rfl]
          refine ⟨by simp [h1], ?_, fun hc I hI => ?_⟩
          · rw [List.getElem?_set_self hlt, ← h2, hk]; rfl
          · rw [List.getElem?_set_self hlt] at hI
            cases hI
            exact h3 hc J hk
        · rw [if_neg hki, List.getElem?_set_ne hki]
          exact ⟨by simp [h1], h2, h3⟩
    | run k =>
      simp only [World.step, Own.step]
      cases hk : w.sims[k]? with
      | none =>
        simp only
        split_ifs with hki
        · subst hki
          exact ⟨h1, h2, fun _ I hI => by rw [hk] at hI; cases hI⟩
        · exact ⟨h1, h2, h3⟩
      | some J =>
        simp only
        by_cases hki : k = i
        · subst hki
          have hlt : k < w.sims.length := (List.getElem?_eq_some_iff.1 hk).1
          rw [if_pos rfl]
          refine ⟨by simp [h1], ?_, fun hc I hI => ?_⟩
          · rw [List.getElem?_set_self hlt, ← h2, hk]; rfl
          · rw [List.getElem?_set_self hlt] at hI
            cases hI
            rw [← h2, hk] at hc
            simp only [Option.map_some, Option.getD_some, Bool.or_eq_false_iff] at hc
            have hJ := h3 hc.1 J hk
            intro j k'
            have hs := execute_stale (A := A) (g := w.g) (I := J) hc.2 j k'
            have hz := hJ j k'
            exact ⟨hs.1.symm.trans hz.1, hs.2.symm.trans hz.2, hs.3.symm.trans hz.3, hs.4.symm.trans hz.4,
              hs.5.symm.trans hz.5⟩
        · rw [if_neg hki, List.getElem?_set_ne hki]
          exact ⟨by simp [h1], h2, h3⟩
    | _ => exact ⟨h1, h2, h3⟩

/-- A process state with the given selection and nothing else in it. -/
noncomputable def freshWith (sel : Sel) : Globals := { Globals.init with sel := sel }

/-- Outcome of a run after any history: that of a new simulator with the same settings in a new process with the
most recent selection.  Nothing else that happened before matters: runs, geometry, emissivity, clouds and parameter
changes of other simulators, line lists loaded earlier.  (Clouds switched off after a cloudy run are C28; ozone is
`C27_ozone`.) -/
theorem C27_run (hA : ReadsOwnList A) (h : List Op) (i : ℕ) (S : Settings) (hS : (own i h).settings = some S)
    (hcl : S.cloudy = true ∨ (own i h).ranCloudy = false) (ho : ¬ ozoneActive (lastSel h) S.o3n) :
    (World.after A h).result A i = some (execute A (freshWith (lastSel h)) ⟨S, Store.zero⟩).1 := by
  obtain ⟨-, h2, h3⟩ := own_inv (A := A) i h
  have hsel := C27_selection (A := A) h
  unfold World.result
  rw [hS] at h2
  cases hI : (World.after A h).sims[i]? with
  | none => rw [hI] at h2; cases h2
  | some I =>
    rw [hI] at h2
    simp only [Option.map_some, Option.some.injEq] at h2 ⊢
    subst h2
    refine execute_congr hA rfl hsel (fun hh => absurd (hsel ▸ hh) ho) (hcl.imp id fun hc j _ k _ => h3 hc I hI j k)

/-- Two simulators with the same settings, both used only as allowed above, agree after any two histories with the
same latest selection. -/
theorem C27_interchangeable (hA : ReadsOwnList A) (h h' : List Op) (i i' : ℕ) (S : Settings)
    (hS : (own i h).settings = some S) (hS' : (own i' h').settings = some S) (hsel : lastSel h = lastSel h')
    (hcl : S.cloudy = true ∨ ((own i h).ranCloudy = false ∧ (own i' h').ranCloudy = false))
    (ho : ¬ ozoneActive (lastSel h) S.o3n) :
    (World.after A h).result A i = (World.after A h').result A i' := by
  rw [C27_run hA h i S hS (hcl.imp id (·.1)) ho,
    C27_run hA h' i' S hS' (hcl.imp id (·.2)) (hsel ▸ ho), hsel]

/-- The ozone line list built by the explicit load calls alone. -/
def loadedO3 (h : List Op) : LineList :=
  h.foldl (fun L op => match op with | .loadO3 N => reloadLL N L | _ => L) fun _ => none

theorem o3_inv (h : List Op) (hamu : ∀ i, ∀ h', h' <+: h → ∀ S, (own i h').settings = some S → S.amu = none) :
    (World.after A h).g.o3ll = loadedO3 h := by
  induction h using List.reverseRecOn with
  | nil => rfl
  | append_singleton h op ih =>
    have ih := ih fun i h' hp => hamu i h' (hp.trans (List.prefix_append _ _))
    rw [after_append]
    have hl : loadedO3 (h ++ [op]) = match op with | .loadO3 N => reloadLL N (loadedO3 h) | _ => loadedO3 h := by
      unfold loadedO3; rw [List.foldl_append]; cases op <;> rfl
    rw [hl]
    cases op with
    | loadO3 L => simp only [World.step, ih]
    | run i =>
      simp only [World.step]
      cases hI : (World.after A h).sims[i]? with
      | none => exact ih
      | some I =>
        obtain ⟨-, h2, -⟩ := own_inv (A := A) i h
        rw [hI] at h2
        have := hamu i h (List.prefix_append _ _) I.set h2.symm
        exact ((execute_keeps (A := A) (World.after A h).g I).2 this).trans ih
    | modify i f =>
      simp only [World.step]
      cases (World.after A h).sims[i]? with
      | none => exact ih
      | some I => exact ih
    | _ => exact ih

/-- With ozone active a run additionally depends on the ozone line list, which is the one explicitly loaded as long
as no simulator of the process used modified spectroscopic parameters (`amu`). -/
theorem C27_ozone (hA : ReadsOwnList A) (h : List Op) (i : ℕ) (S : Settings) (hS : (own i h).settings = some S)
    (hcl : S.cloudy = true ∨ (own i h).ranCloudy = false)
    (hamu : ∀ i, ∀ h', h' <+: h → ∀ S, (own i h').settings = some S → S.amu = none) :
    (World.after A h).result A i =
      some (execute A { freshWith (lastSel h) with o3ll := loadedO3 h } ⟨S, Store.zero⟩).1 := by
  obtain ⟨-, h2, h3⟩ := own_inv (A := A) i h
  have hsel := C27_selection (A := A) h
  unfold World.result
  rw [hS] at h2
  cases hI : (World.after A h).sims[i]? with
  | none => rw [hI] at h2; cases h2
  | some I =>
    rw [hI] at h2
    simp only [Option.map_some, Option.some.injEq] at h2 ⊢
    subst h2
    exact execute_congr hA rfl hsel (fun _ => o3_inv h hamu) (hcl.imp id fun hc j _ k _ => h3 hc I hI j k)

/-- The process state left by a normally ending run with at least one angle and frequency. -/
theorem execute_globals {g : Globals} {I : Inst} {rows : List Row} (h : (execute A g I).1 = .ok rows)
    (hang : 0 < I.set.nang) (hnf : 0 < I.set.nf) : ∃ g1 es, initLineList A g = .ok g1 ∧
      (execute A g I).2.g = cellGlobals I.set { g1 with fromSat := I.set.satellite } es := by
  unfold execute at h ⊢
  cases hl : initLineList A g with
  | error x => rw [hl] at h; cases h
  | ok g1 =>
    simp only [hl] at h ⊢
    cases hv : vapor I.set.tk I.set.rh I.set.ice with
    | error x => rw [hv] at h; cases h
    | ok er =>
      obtain ⟨e, rho⟩ := er
      simp only [hv] at h ⊢
      set g0 : Globals := { g1 with fromSat := I.set.satellite } with hg0
      cases hf : forRangeE 0 I.set.nang (angleBody A I.set e rho
          (fun i => (refractivity1 (I.set.p i) (I.set.tk i) (e i)).2.1)
          (fun i => (refractivity1 (I.set.p i) (I.set.tk i) (e i)).1)
          (fun i => (refractivity1 (I.set.p i) (I.set.tk i) (e i)).2.2)) ⟨g0, I.out⟩ with
      | error x => rw [hf] at h; cases h
      | ok t =>
        simp only
        have := forRangeE_ok_inv (s := ⟨g0, I.out⟩) (I := fun n (t : RunState) => GInv I.set g0 t.g ∧
          (0 < n → ∃ es, t.g = cellGlobals I.set g0 es)) (Nat.zero_le _)
          ⟨GInv.refl _ _, fun h => absurd h (lt_irrefl _)⟩ (by
            intro k u u' _ _ ⟨i1, _⟩ hb
            unfold angleBody at hb
            simp only at hb
            split at hb
            · cases hb
            · rename_i q _
              have key := forRangeE_ok_inv
                (f := freqBody A I.set e
                  (pathOf I.set (fun i => (refractivity1 (I.set.p i) (I.set.tk i) (e i)).2.2) k) k)
                (s := ⟨u.g, u.out.setPath k q⟩) (I := fun n (t : RunState) => GInv I.set g0 t.g ∧
                (0 < n → ∃ es, t.g = cellGlobals I.set g0 es)) (Nat.zero_le _)
                ⟨i1, fun h => absurd h (lt_irrefl _)⟩ (by
                  intro j v v' _ _ ⟨j1, _⟩ hc
                  rw [freqBody_eq j1] at hc
                  split at hc
                  · cases hc
                  · rename_i es _
                    split at hc
                    · cases hc
                    · cases hc
                      exact ⟨GInv.step _ _ _, fun _ => ⟨es, rfl⟩⟩) hb
              exact ⟨key.1, fun _ => key.2 hnf⟩) hf
        obtain ⟨es, hes⟩ := this.2 hang
        exact ⟨g1, es, rfl, hes⟩

/-- Modified ozone parameters of one run stay in the process: the line list is never reloaded by `execute`. -/
theorem C27_ozone_parameters_persist {g : Globals} {I : Inst} {rows : List Row} {u : Amu}
    (h : (execute A g I).1 = .ok rows) (hang : 0 < I.set.nang) (hnf : 0 < I.set.nf) (hnl : 0 < I.set.nl)
    (hu : I.set.amu = some u) (ho : ozoneActive g.sel I.set.o3n) (a : String) :
    (execute A g I).2.g.o3ll a = (u.o3 a).apply (g.o3ll a) := by
  obtain ⟨g1, es, hl, he⟩ := execute_globals h hang hnf
  have h0 := initLineList_keeps (A := A) g
  rw [hl] at h0
  simp only at h0
  rw [he]
  unfold cellGlobals
  rw [if_neg (by omega), hu]
  simp only [amuApply]
  rw [if_pos (by rw [h0.1]; exact ho), h0.2]

/-! ### Concrete histories -/

/-- Routines whose ozone absorption is the first entry of the line-list attribute `"s1"`. -/
def ozoneA : AbsRoutines :=
  { zeroA with o3 := fun _ L _ _ _ _ => match L "s1" with | some v => .ok (v 0) | none => .ok 0 }

/-- A simulator with an ozone profile, without and with modified parameters (`s1` set to 5). -/
noncomputable def ozoneS (amu : Bool) : Settings :=
  { demoClear with
    o3n := some fun _ => 1
    nang := 1
    amu := if amu then some ⟨fun _ _ => .keep, fun _ _ => .keep, fun a => if a = "s1" then .assign fun _ => 5 else .keep⟩
      else none }

/-- The process after selecting models and loading an ozone line list with `s1` = 1. -/
noncomputable def ozoneHist : List Op :=
  [.construct (ozoneS true), .construct (ozoneS false), .initAbsmdl "R98", .setO3 "R18",
    .loadO3 fun a => if a = "s1" then some fun _ => 1 else none]

theorem ozoneA_total : TotalRoutines ozoneA :=
  ⟨fun _ _ _ _ _ _ => ⟨_, rfl⟩, fun _ _ _ _ _ _ => ⟨_, rfl⟩, fun _ _ _ _ => ⟨_, rfl⟩,
    fun _ L _ _ _ _ => by
      simp only [ozoneA]
      cases L "s1" with
      | none => exact ⟨_, rfl⟩
      | some v => exact ⟨_, rfl⟩, fun _ _ _ _ => ⟨_, rfl⟩⟩

/-- Selection made in `ozoneHist`. -/
def ozoneSel : Sel := ⟨some "R98", some "R98", some "R98", some "R98", some "R18"⟩

theorem ozone_run (b : Bool) {g : Globals} (hsel : g.sel = ozoneSel) {v : ℝ}
    (hL : g.o3ll "s1" = some fun _ => v) (hv0 : 0 ≤ v) :
    ∃ rows r, (execute ozoneA g ⟨ozoneS b, Store.zero⟩).1 = .ok rows ∧ rows[0]? = some r ∧
      r.taudry = some (2 * if b then 5 else v) := by
  obtain ⟨rows, hr⟩ := execute_total ozoneA_total (g := g) (I := ⟨ozoneS b, Store.zero⟩)
    (by rw [hsel]; exact ⟨⟨_, _, rfl, rfl⟩, ⟨_, _, rfl, rfl⟩, ⟨_, rfl⟩, ⟨_, rfl⟩⟩) rfl
    (show 1 ≤ 3 by decide) (show 2 ≤ 2 by decide) (fun h => by cases h) rfl
    fun k hk => (sin_pos_of_angle (demo_angles k (Nat.lt_trans hk (show 1 < 2 by decide))).1
      (demo_angles k (Nat.lt_trans hk (show 1 < 2 by decide))).2).ne'
  obtain ⟨g1, e, rho, hl, hv, hrow, hc⟩ := (execute_ok hr).ex
  have hget := grid_get (fun k j => ((execute ozoneA g ⟨ozoneS b, Store.zero⟩).2.out.cell j k).row
    ((ozoneS b).angles k)) 1 2 0 0 (by decide) (by decide)
  refine ⟨rows, _, hr, by rw [hrow]; exact hget, ?_⟩
  obtain ⟨es, c1, c2⟩ := (hc 0 (show 0 < 1 by decide)).2 0 (show 0 < 2 by decide)
  have h90 : Real.sin ((ozoneS b).angles 0 * Real.pi / 180) = 1 := by
    have : (ozoneS b).angles 0 = 90 := by norm_num [ozoneS, demoClear, demoS]
    rw [this]; exact sin_ninety
  rw [pathOf_plane (S := ozoneS b) rfl (by rw [h90]; norm_num), h90] at c2
  obtain ⟨a, a1, -, -, -, a3⟩ := (cellStep_ok c2).clear
  set V : ℝ := if b then 5 else v with hV
  have hV0 : 0 ≤ V := by rw [hV]; split_ifs <;> linarith
  have ha : ∀ i < 3, (a i).2 = V := by
    intro i hi
    have := (tabulateE_ok a1).1 i hi
    unfold clearLevel n2Term o3Term at this
    have h0 := initLineList_keeps (A := ozoneA) g
    have hl' : initLineList ozoneA g = .ok g1 := hl
    rw [hl'] at h0
    simp only at h0
    have hs : (cellGlobals (ozoneS b) { g1 with fromSat := (ozoneS b).satellite } es).sel = ozoneSel := by
      rw [cellGlobals_sel]; exact h0.1.trans hsel
    have hs1 : g1.sel = ozoneSel := h0.1.trans hsel
    have ho : ozoneActive ozoneSel (ozoneS b).o3n := ⟨rfl, "R18", rfl, by decide⟩
    have hL' : (cellGlobals (ozoneS b) { g1 with fromSat := (ozoneS b).satellite } es).o3ll "s1" =
        some fun _ => V := by
      unfold cellGlobals
      rw [if_neg (show ¬ (ozoneS b).nl = 0 from (by decide : ¬ 3 = 0))]
      cases b with
      | false =>
        show g1.o3ll "s1" = _
        rw [h0.2, hL, hV]; simp
      | true =>
        simp only [ozoneS, amuApply, if_true]
        rw [if_pos (by rw [hs1]; exact ⟨rfl, "R18", rfl, by decide⟩), hV]
        simp [AttrUpd.apply]
    simp only [hs, if_pos ho] at this
    simp only [ozoneSel, ozoneA, hL', show (ozoneS b).o3n = some (fun _ => 1) from rfl] at this
    have h := Except.ok.inj this
    rw [← h]
    simp
  simp only [integ] at a3
  have hx : ∀ i, 1 ≤ i → i < 3 → layerValue true (prevEntry (fun i => (a i).2) 3 i) ((fun i => (a i).2) i) =
      some V := by
    intro i h1 h2
    unfold layerValue prevEntry
    rw [if_neg (by omega : ¬ i = 0)]
    beta_reduce
    rw [ha i h2, ha (i - 1) (by omega), if_neg (by rw [not_or]; constructor <;> norm_num <;> exact hV0)]
    norm_num
  have e4 : expInt true (ozoneS b).nl (fun i => (a i).2)
      (fun i => if i = 0 then 0 else ((ozoneS b).z i - (ozoneS b).z (i - 1)) * (1 / 1)) 1 (ozoneS b).nl 1 = _ :=
    expInt_ok (z := true) (nl := 3) (x := fun i => (a i).2)
    (ds := fun i => if i = 0 then 0 else ((ozoneS b).z i - (ozoneS b).z (i - 1)) * (1 / 1)) (ibeg := 1) (factor := 1)
    (v := fun _ => V) (by decide) hx
  rw [e4] at a3
  simp only [Except.map] at a3
  have := (Prod.mk.inj (Except.ok.inj a3)).1
  refine this.symm.trans ?_
  norm_num [Finset.sum_Ico_succ_top, ozoneS, demoClear, demoS]
  ring

/-- A run with modified ozone parameters on simulator 0 changes what simulator 1, which has no modified parameters,
reports afterwards: its dry opacity is 10 instead of 2 Np. -/
theorem C27_ozone_leak_refuted : ∃ rows rows' r r',
    (World.after ozoneA ozoneHist).result ozoneA 1 = some (.ok rows) ∧
    (World.after ozoneA (ozoneHist ++ [.run 0])).result ozoneA 1 = some (.ok rows') ∧
    rows[0]? = some r ∧ rows'[0]? = some r' ∧ r.taudry = some 2 ∧ r'.taudry = some 10 := by
  have hsims : (World.after ozoneA ozoneHist).sims = [⟨ozoneS true, Store.zero⟩, ⟨ozoneS false, Store.zero⟩] := rfl
  have hsel : (World.after ozoneA ozoneHist).g.sel = ozoneSel := rfl
  have hL : (World.after ozoneA ozoneHist).g.o3ll "s1" = some fun _ => 1 := rfl
  obtain ⟨rows, r, h1, h2, h3⟩ := ozone_run false hsel hL (by norm_num)
  obtain ⟨rows0, r0, h01, h02, h03⟩ := ozone_run true hsel hL (by norm_num)
  have hp := C27_ozone_parameters_persist h01 (show 0 < 1 by decide) (show 0 < 2 by decide) (show 0 < 3 by decide)
    (show (ozoneS true).amu = some _ from rfl) (by rw [hsel]; exact ⟨rfl, "R18", rfl, by decide⟩) "s1"
  simp only [if_true, AttrUpd.apply] at hp
  have hk := (execute_keeps (A := ozoneA) (World.after ozoneA ozoneHist).g ⟨ozoneS true, Store.zero⟩).1
  obtain ⟨rows', r', g1, g2, g3⟩ := ozone_run false (hk.trans hsel) hp (by norm_num)
  refine ⟨rows, rows', r, r', ?_, ?_, h2, g2, ?_, ?_⟩
  · unfold World.result
    rw [hsims]
    simp [h1]
  · rw [after_append]
    unfold World.result World.step
    simp only [hsims, List.getElem?_cons_zero, List.set_cons_zero, List.getElem?_cons_succ, Option.map_some, g1]
  · rw [h3]; norm_num
  · rw [g3]; norm_num

/-- `C27_run` applies to simulator 0 of this history, whose models were last selected through simulator 1, after
runs of simulator 1 with other geometry: it runs with "R19". -/
example : (World.after demoA [.construct demoS, .initAbsmdl "R98", .construct { demoS with satellite := false },
      .run 0, .initAbsmdl "R19", .run 1]).result demoA 0 =
    some (execute demoA (freshWith ⟨some "R19", some "R19", some "R19", some "R19", none⟩) ⟨demoS, Store.zero⟩).1 :=
  C27_run ⟨fun _ _ _ _ _ _ => rfl, fun _ _ _ _ _ _ => rfl⟩ _ 0 demoS rfl (Or.inl rfl)
    (by rintro ⟨h, -⟩; cases h)

end Verif.Props
