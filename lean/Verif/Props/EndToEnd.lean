import Verif.Props.Dispatch
import Verif.Props.History

/-!
# C67: what a user gets from the simulator with the models that ship with it
-/

namespace Verif.Props

open Verif.Model Verif.Py Verif.Spec Real

/-- Input a user may be expected to give (water path, no refraction): positive temperatures, pressures and
frequencies, vapour pressure not above the air pressure, heights in order, elevation angles between 0 and 180
degrees, one emissivity per frequency. -/
structure SensibleInput (S : Settings) : Prop where
  levels : 1 ≤ S.nl
  emissivity : S.nf ≤ S.es.length
  frq : ∀ j < S.nf, 0 < S.frq j ∧ S.frq j ≤ 1199
  tk : ∀ i < S.nl, 0 < S.tk i
  p : ∀ i < S.nl, 0 < S.p i
  rh : ∀ i < S.nl, 0 ≤ S.rh i
  vapour : ∀ i < S.nl, S.rh i * eswat (S.tk i) ≤ S.p i
  z : ∀ i, i + 1 < S.nl → S.z i ≤ S.z (i + 1)
  angles : ∀ k < S.nang, 0 < S.angles k ∧ S.angles k < 180
  ice : S.ice = false
  amu : S.amu = none
  rays : S.rayTracing = false

theorem SensibleInput.good {S : Settings} (h : SensibleInput S) : GoodInput S where
  levels := h.levels
  emissivity := h.emissivity
  frq j hj := (h.frq j hj).1
  tk := h.tk
  p := h.p
  rh := h.rh
  vapour := h.vapour
  ice := h.ice
  amu := h.amu
  path k hk := goodPath_plane h.rays (h.angles k hk).1 (h.angles k hk).2 h.z

theorem SensibleInput.below {S : Settings} (h : SensibleInput S) : ∀ j < S.nf, S.frq j < 4 * ckdStep := fun j hj =>
  lt_of_le_of_lt (h.frq j hj).2 (by unfold ckdStep; norm_num)

/-- Physically possible table: one row per angle and frequency, angle after angle, each with a brightness
temperature between 0 K and `M`. -/
def PossibleRows (S : Settings) (M : ℝ) (rows : List Row) : Prop :=
  rows.length = S.nang * S.nf ∧
  ∀ k < S.nang, ∀ j < S.nf, ∃ r Tb, rows[k * S.nf + j]? = some r ∧ r.angle = S.angles k ∧ r.tbtotal = some Tb ∧
    0 ≤ Tb ∧ Tb ≤ M

theorem possible_of_ok {A : AbsRoutines} {g : Globals} {I : Inst} {rows : List Row} (h : (execute A g I).1 = .ok rows)
    (hI : SensibleInput I.set) (hst : I.set.cloudy = true ∨ CleanClouds I) {M : ℝ} (hM : ∀ i < I.set.nl, I.set.tk i ≤ M)
    (hview : I.set.satellite = true ∧ (∀ es ∈ I.set.es, 0 ≤ es ∧ es ≤ 1) ∨ I.set.satellite = false ∧ 2.728 ≤ M) :
    PossibleRows I.set M rows := by
  have hrow := (execute_ok h).ex
  obtain ⟨-, -, -, -, -, hrow, -⟩ := hrow
  refine ⟨(C29_rows h).1, fun k hk j hj => ?_⟩
  have hT : ∀ i < I.set.nl, 0 < I.set.tk i ∧ I.set.tk i ≤ M := fun i hi => ⟨hI.tk i hi, hM i hi⟩
  obtain ⟨Tb, h1, h2, h3⟩ : ∃ Tb, ((execute A g I).2.out.cell j k).tbtotal = some Tb ∧ 0 ≤ Tb ∧ Tb ≤ M := by
    rcases hview with ⟨hs, hes⟩ | ⟨hs, hMc⟩
    · exact C26_satellite_le h hj hk (hI.good.path k hk) hst hs hes (hI.frq j hj).1 hT
    · exact C26_ground_le h hj hk (hI.good.path k hk) hst hs (hI.frq j hj).1 hMc hT
  refine ⟨((execute A g I).2.out.cell j k).row (I.set.angles k), Tb, ?_, rfl, h1, h2, h3⟩
  rw [hrow]
  exact grid_get (fun k j => ((execute A g I).2.out.cell j k).row (I.set.angles k)) _ _ k j hk hj

/-- After any sequence of calls in the process (simulators made and run, models chosen, runs that raised), with one of
the ten usable names chosen last for water vapour, oxygen and nitrogen, a simulator with sensible clear-sky settings
returns a physically possible table. -/
theorem C67_clear (h : List Op) (i : ℕ) (S : Settings) (hS : (own i h).settings = some S) (hI : SensibleInput S)
    (hcl : S.cloudy = false) (hran : (own i h).ranCloudy = false) (hoz : S.o3n = none) {m : String}
    (hm : m ∈ ["R98", "R03", "R16", "R17", "R18", "R19", "R19SD", "R20", "R20SD", "R24"])
    (hsel : (lastSel h).h2o = some m ∧ (lastSel h).o2 = some m ∧ (lastSel h).n2 = some m) {M : ℝ}
    (hM : ∀ i < S.nl, S.tk i ≤ M)
    (hview : S.satellite = true ∧ (∀ es ∈ S.es, 0 ≤ es ∧ es ≤ 1) ∨ S.satellite = false ∧ 2.728 ≤ M) :
    ∃ rows, (World.after shipped h).result shipped i = some (.ok rows) ∧ PossibleRows S M rows := by
  have ho : ¬ ozoneActive (lastSel h) S.o3n := by simp [ozoneActive, hoz]
  obtain ⟨rows, hr⟩ : ∃ rows, (execute shipped (freshWith (lastSel h)) ⟨S, Store.zero⟩).1 = .ok rows := by
    refine C32_completes (g := freshWith (lastSel h)) (I := ⟨S, Store.zero⟩) hI.good hsel.1 hsel.2.1 hsel.2.2 ?_ ?_ ?_
      (fun h => absurd h ho) (fun _ => hI.below) (fun h => by simp [hcl] at h) (fun h => by simp [hcl] at h)
    all_goals
      simp only [n2Runs, List.mem_cons, List.not_mem_nil, or_false] at hm ⊢
      tauto
  refine ⟨rows, ?_, possible_of_ok hr hI (Or.inr (clean_zero S)) hM hview⟩
  rw [C27_run C32_own_tables h i S hS (Or.inr hran) ho, hr]

/-- The same with a liquid cloud (between 210 and 396 K), for the eight names that can be used then. -/
theorem C67_cloudy (h : List Op) (i : ℕ) (S : Settings) (hS : (own i h).settings = some S) (hI : SensibleInput S)
    (hcl : S.cloudy = true) (hc : CloudInput S)
    (hT : ∀ dl di, S.dens = some (dl, di) → ∀ i < S.nl, 0 < dl i → 210 ≤ S.tk i ∧ S.tk i ≤ 396) (hoz : S.o3n = none)
    {m : String} (hm : m ∈ ["R98", "R03", "R16", "R17", "R19", "R19SD", "R20", "R24"])
    (hsel : (lastSel h).h2o = some m ∧ (lastSel h).o2 = some m ∧ (lastSel h).n2 = some m ∧ (lastSel h).liq = some m)
    {M : ℝ} (hM : ∀ i < S.nl, S.tk i ≤ M)
    (hview : S.satellite = true ∧ (∀ es ∈ S.es, 0 ≤ es ∧ es ≤ 1) ∨ S.satellite = false ∧ 2.728 ≤ M) :
    ∃ rows, (World.after shipped h).result shipped i = some (.ok rows) ∧ PossibleRows S M rows := by
  have ho : ¬ ozoneActive (lastSel h) S.o3n := by simp [ozoneActive, hoz]
  obtain ⟨rows, hr⟩ : ∃ rows, (execute shipped (freshWith (lastSel h)) ⟨S, Store.zero⟩).1 = .ok rows := by
    refine C32_completes (g := freshWith (lastSel h)) (I := ⟨S, Store.zero⟩) hI.good hsel.1 hsel.2.1 hsel.2.2.1 ?_ ?_ ?_
      (fun h => absurd h ho) (fun _ => hI.below) hc ?_
    rotate_left 3
    · intro _ dl di hd j hj h0
      obtain ⟨h1, h2⟩ := hT dl di hd j hj h0
      refine ⟨m, hsel.2.2.2, ?_⟩
      simp only [List.mem_cons, List.not_mem_nil, or_false] at hm ⊢
      tauto
    all_goals
      simp only [n2Runs, List.mem_cons, List.not_mem_nil, or_false] at hm ⊢
      tauto
  refine ⟨rows, ?_, possible_of_ok hr hI (Or.inl hcl) hM hview⟩
  rw [C27_run C32_own_tables h i S hS (Or.inl hcl) ho, hr]

theorem realS_sensible (c : Bool) : SensibleInput (realS c) where
  levels := (realS_good c).levels
  emissivity := (realS_good c).emissivity
  frq j hj := ⟨(realS_good c).frq j hj, by
    have : (j : ℝ) < 2 := by exact_mod_cast hj
    simp only [realS, demoS]
    linarith⟩
  tk := (realS_good c).tk
  p := (realS_good c).p
  rh := (realS_good c).rh
  vapour := (realS_good c).vapour
  z i _ := by simp [realS, demoS]
  angles := demo_angles
  ice := rfl
  amu := rfl
  rays := rfl

theorem realS_tk (c : Bool) (i : ℕ) (hi : i < (realS c).nl) : 270 ≤ (realS c).tk i ∧ (realS c).tk i ≤ 288 := by
  have h3 : (i : ℝ) < 3 := by exact_mod_cast hi
  have h0 : (0 : ℝ) ≤ i := Nat.cast_nonneg i
  simp only [realS]
  constructor <;> linarith

/-- Two simulators made, one run with a name that fails, then R24 chosen: the first simulator works. -/
example : ∃ rows, (World.after shipped [.construct (realS false), .construct (realS true), .initAbsmdl "R23", .run 0,
      .initAbsmdl "R24"]).result shipped 0 = some (.ok rows) ∧ PossibleRows (realS false) 288 rows :=
  C67_clear _ 0 (realS false) rfl (realS_sensible false) rfl rfl rfl (m := "R24") (by decide) ⟨rfl, rfl, rfl⟩
    (fun i hi => (realS_tk false i hi).2) (by
      simp only [realS, demoS]
      norm_num)

/-- And so does the cloudy one. -/
example : ∃ rows, (World.after shipped [.construct (realS false), .construct (realS true), .initAbsmdl "R23", .run 0,
      .initAbsmdl "R24"]).result shipped 1 = some (.ok rows) ∧ PossibleRows (realS true) 288 rows :=
  C67_cloudy _ 1 (realS true) rfl (realS_sensible true) rfl (fun _ => ⟨_, _, _, _, rfl, rfl⟩)
    (fun dl di _ i hi _ => by obtain ⟨h1, h2⟩ := realS_tk true i hi; constructor <;> linarith) rfl (m := "R24")
    (by decide) ⟨rfl, rfl, rfl, rfl⟩ (fun i hi => (realS_tk true i hi).2) (by
      simp only [realS, demoS]
      norm_num)

end Verif.Props
