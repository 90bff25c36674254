import Verif.Model.Simulator

/-!
# Histories of several simulators in one process

`pyrtlib/tb_spectrum.py:126-193`, `pyrtlib/absorption_model.py:24-97`.  A world is the process-wide state and
the list of simulators created so far; a history is a list of calls in chronological order.
-/

namespace Verif.Model

open Verif.Py

/-- A call made by the user's program. -/
inductive Op where
  /-- `TbCloudRTE(...)` with these settings (accepted input); the new simulator gets the next number -/
  | construct (S : Settings)
  /-- `sim.init_absmdl(m)` on any simulator, tb_spectrum.py:180-190 -/
  | initAbsmdl (m : String)
  /-- `H2OAbsModel.model = m` -/
  | setH2O (m : String)
  /-- `O2AbsModel.model = m` -/
  | setO2 (m : String)
  /-- `N2AbsModel.model = m` -/
  | setN2 (m : String)
  /-- `LiqAbsModel.model = m` -/
  | setLiq (m : String)
  /-- `O3AbsModel.model = m` -/
  | setO3 (m : String)
  /-- `O3AbsModel.set_ll()`: the ozone line list is (re)loaded from `L` -/
  | loadO3 (L : LineList)
  /-- attribute changes of simulator `i`: setters, `cloudy = ...`, `init_cloudy`, `set_amu`, ... -/
  | modify (i : ℕ) (f : Settings → Settings)
  /-- `sim_i.execute()` -/
  | run (i : ℕ)

/-- State of the process and its simulators. -/
structure World where
  g : Globals
  sims : List Inst

/-- A new process. -/
def World.init : World := ⟨Globals.init, []⟩

/-- Effect of one call. -/
noncomputable def World.step (A : AbsRoutines) (w : World) : Op → World
  | .construct S => { w with sims := w.sims ++ [⟨S, Store.zero⟩] }
  | .initAbsmdl m => { w with g := { w.g with sel :=
      { w.g.sel with h2o := some m, o2 := some m, n2 := some m, liq := some m } } }
  | .setH2O m => { w with g := { w.g with sel := { w.g.sel with h2o := some m } } }
  | .setO2 m => { w with g := { w.g with sel := { w.g.sel with o2 := some m } } }
  | .setN2 m => { w with g := { w.g with sel := { w.g.sel with n2 := some m } } }
  | .setLiq m => { w with g := { w.g with sel := { w.g.sel with liq := some m } } }
  | .setO3 m => { w with g := { w.g with sel := { w.g.sel with o3 := some m } } }
  | .loadO3 L => { w with g := { w.g with o3ll := reloadLL L w.g.o3ll } }
  | .modify i f =>
    match w.sims[i]? with
    | none => w
    | some I => { w with sims := w.sims.set i { I with set := f I.set } }
  | .run i =>
    match w.sims[i]? with
    | none => w
    | some I =>
      let s := (execute A w.g I).2
      ⟨s.g, w.sims.set i { I with out := s.out }⟩

/-- The world after a history. -/
noncomputable def World.after (A : AbsRoutines) (h : List Op) : World := h.foldl (World.step A) World.init

/-- Outcome of `sim_i.execute()` in a world (`none`: there is no simulator `i`). -/
noncomputable def World.result (A : AbsRoutines) (w : World) (i : ℕ) : Option (Except PyErr (List Row)) :=
  (w.sims[i]?).map fun I => (execute A w.g I).1

end Verif.Model
