import Verif.Model.History
import Mathlib.Data.List.MinMax

/-!
# Weighting functions

`pyrtlib/weighting_functions.py:20-201`.  Matrices are lists of rows (one row per frequency).
-/

namespace Verif.Model

open Verif.Py Real

/-- `np.arange(0, stop, step)` for `0 < step`: `ceil(stop / step)` entries `i * step`. -/
noncomputable def npArange0 (stop step : ℝ) : List ℝ :=
  (List.range ⌈stop / step⌉₊).map fun i : ℕ => (i : ℝ) * step

/-- `np.interp(x, xp, fp)` on the list of pairs `(xp, fp)` with increasing `xp`; `none` for an empty table
(`ValueError` in numpy). -/
noncomputable def npInterp : List (ℝ × ℝ) → ℝ → Option ℝ
  | [], _ => none
  | [a], _ => some a.2
  | a :: b :: l, x =>
    if x ≤ a.1 then some a.2
    else if x < b.1 then some (a.2 + (b.2 - a.2) / (b.1 - a.1) * (x - a.1))
    else npInterp (b :: l) x

/-- `np.max(z)` of a list; `none` (`ValueError`) for the empty one. -/
noncomputable def npMax : List ℝ → Option ℝ
  | [] => none
  | a :: l => some (l.foldl max a)

/-- A weighting-function object, weighting_functions.py:55-67.  `frequencies = none`: never set. -/
structure WF where
  zinterp : List ℝ
  pinterp : List ℝ
  tinterp : List ℝ
  rhinterp : List ℝ
  frequencies : Option (List ℝ)
  satellite : Bool
  emissivity : ℝ
  model : String
  angle : ℝ
  bandpass : Option (List ℕ)

/-- `np.interp(grid, z, f)`: element by element. -/
noncomputable def interpAll (z f grid : List ℝ) : Option (List ℝ) := grid.mapM (npInterp (z.zip f))

/-- `WeightingFunctions.__init__`, weighting_functions.py:28-67, for `0 < step`; the profile arrays must have equal lengths
(otherwise `np.interp` raises `ValueError`). -/
noncomputable def WF.new (z p t rh : List ℝ) (step : ℝ) : Except PyErr WF :=
  match npMax z with
  | none => .error .valueError
  | some m =>
    let grid := npArange0 (m + step) step
    if p.length = z.length ∧ t.length = z.length ∧ rh.length = z.length then
      match interpAll z p grid, interpAll z t grid, interpAll z rh grid with
      | some p, some t, some rh =>
        .ok ⟨grid, p, t, rh, none, true, 1, "R24", 90, none⟩
      | _, _, _ => .error .valueError
    else .error .valueError

/-- The settings of the simulator built in `_perform_calculation`, weighting_functions.py:131-135.  The grid starts at
0, so the shift of the heights made by the constructor changes nothing. -/
noncomputable def WF.settings (w : WF) (frq : List ℝ) : Settings where
  nl := w.zinterp.length
  z i := w.zinterp.getD i 0
  z0 := 0
  p i := w.pinterp.getD i 0
  tk i := w.tinterp.getD i 0
  rh i := w.rhinterp.getD i 0
  nf := frq.length
  frq i := frq.getD i 0
  nang := 1
  angles _ := w.angle
  o3n := none
  amu := none
  rayTracing := true
  satellite := w.satellite
  cloudy := false
  ice := false
  es := List.replicate frq.length w.emissivity
  clouds := none
  dens := none

/-- Selection made by `_perform_calculation`, weighting_functions.py:134-137: `init_absmdl(self.model)`, then the last
oxygen model of the line-list file (`lastO2`). -/
def wfSelect (lastO2 model : String) (g : Globals) : Globals :=
  { g with sel := { g.sel with h2o := some model, n2 := some model, liq := some model, o2 := some lastO2 } }

/-- `np.cumsum` continued from `a`. -/
def cumsumFrom (a : ℝ) : List ℝ → List ℝ
  | [] => []
  | x :: l => (a + x) :: cumsumFrom (a + x) l

/-- `np.cumsum(·, axis=1)` -/
def cumsumRows (m : List (List ℝ)) : List (List ℝ) := m.map (cumsumFrom 0)

/-- `np.fliplr` -/
def fliplr (m : List (List ℝ)) : List (List ℝ) := m.map List.reverse

/-- `np.argmin(np.abs(z - z0))`: the first position of the minimum. -/
noncomputable def argminAbs (z : List ℝ) (z0 : ℝ) : Option ℕ :=
  (List.range z.length).argmin fun i => |z.getD i 0 - z0|

/-- The arithmetic of `generate_wf`, weighting_functions.py:174-199, on the matrices `tautotal[:, 0, :]` and
`abstotal[:, 0, :]`; `none`: empty grid (`IndexError`). -/
noncomputable def wfCore (sat : Bool) (z : List ℝ) (tau abst : List (List ℝ)) : Option (List (List ℝ)) := do
  let z0 ← if sat then z.getLast? else z.head?
  let l0 ← argminAbs z z0
  let ao := if sat then fliplr (tau.map (List.take (l0 + 1))) else tau.map (List.drop l0)
  let abss := if sat then abst.map (List.take (l0 + 1)) else abst.map (List.drop l0)
  let cumao := if sat then fliplr (cumsumRows ao.reverse).reverse else cumsumRows ao
  let trans := cumao.map (List.map fun x => exp (-x))
  return List.zipWith (List.zipWith (· * ·)) trans abss

/-- Row of a cell used by `generate_wf`, lines 182-184: total layer opacity and absorption coefficient. -/
noncomputable def Cell.wfRow (n : ℕ) (c : Cell) : Option (List ℝ × List ℝ) :=
  c.taulay.map fun t => ((List.range n).map t, (List.range n).map fun i => c.awet i + c.adry i)

/-- `WeightingFunctions.generate_wf`, weighting_functions.py:162-201, with the process state left behind.  Inner `none`:
some opacity is not finite. -/
noncomputable def WF.generate (A : AbsRoutines) (lastO2 : String) (g : Globals) (w : WF) :
    Except PyErr (Option (List (List ℝ))) × Globals :=
  match w.frequencies with
  | none => (.error .typeError, g)
  | some frq =>
    if w.pinterp = [] then (.error .valueError, g)
    else
      let g := wfSelect lastO2 w.model g
      let S := w.settings frq
      match execute A g ⟨S, Store.zero⟩ with
      | (.error x, s) => (.error x, s.g)
      | (.ok _, s) =>
        match (List.range frq.length).mapM fun j => (s.out.cell j 0).wfRow S.nl with
        | none => (.ok none, s.g)
        | some rows =>
          match wfCore w.satellite w.zinterp (rows.map Prod.fst) (rows.map Prod.snd) with
          | none => (.error .indexError, s.g)
          | some m => (.ok (some m), s.g)

/-- `np.mean` of a slice; `none`: the slice is empty (nan). -/
noncomputable def npMean (l : List ℝ) : Option ℝ := npDiv l.sum l.length

/-- Column `c` of the rows. -/
def column (a : List (List ℝ)) (c : ℕ) : List ℝ := a.map fun r => r.getD c 0

/-- `_mean_channel`, weighting_functions.py:142-160, with the counter `cnt` as state; matrix with `ncol` columns. -/
noncomputable def meanChannel (a : List (List ℝ)) (ncol : ℕ) : List ℕ → ℕ → List (List (Option ℝ))
  | [], _ => []
  | b :: l, cnt =>
    ((List.range ncol).map fun c => npMean (column ((a.drop cnt).take b) c)) :: meanChannel a ncol l (cnt + b)

/-- The channel frequencies computed for the labels in `plot_wf`, weighting_functions.py:231-234, and stored on the
object. -/
noncomputable def plotFrequencies (frq : List ℝ) (bandpass : List ℕ) : List (Option ℝ) :=
  bandpass.mapIdx fun i j => npMean ((frq.drop i).take j)

end Verif.Model
